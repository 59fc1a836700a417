import Verif.Props.Http

/-!
# Properties of the Fulcio, timestamp and OIDC clients: C64 on arbitrary documents, C81-C85
-/

namespace Sigstore.Props

open Sigstore.Oidc Sigstore.Trust Sigstore.LogEntry Sigstore.RekorClient Sigstore.Http Sigstore.Spec Sigstore.Signing

/-! ## Fulcio -/

/-- where the certificates are in a response -/
def chainPath : List Str := ["signedCertificateEmbeddedSct".toList, "chain".toList, "certificates".toList]

theorem keyErrorToFulcio_ok_iff {α : Type} (x : Py α) (a : α) : keyErrorToFulcio x = .ok a ↔ x = .ok a := by
  cases x <;> simp [keyErrorToFulcio]

theorem fulcioCertificates_ok_iff (r : Response) (x : Json) :
    fulcioCertificates r = .ok x ↔ ∃ j, r.json? = some j ∧ At j chainPath x := by
  unfold fulcioCertificates chainPath
  simp only [keyErrorToFulcio_ok_iff, bind_ok_iff, json_ok_iff, item_ok_iff]
  constructor
  · rintro ⟨j, hj, s, hs, c, hc, hx⟩
    exact ⟨j, hj, (at_cons_iff _ _ _ _).2 ⟨s, hs, (at_cons_iff _ _ _ _).2 ⟨c, hc, hx⟩⟩⟩
  · rintro ⟨j, hj, h⟩
    obtain ⟨s, hs, h⟩ := (at_cons_iff _ _ _ _).1 h
    obtain ⟨c, hc, hx⟩ := (at_cons_iff _ _ _ _).1 h
    exact ⟨j, hj, s, hs, c, hc, hx⟩

theorem missing_cons_iff (j : Json) (k : Str) (ks : List Str) :
    Missing j (k :: ks) ↔ Missing j [k] ∨ ∃ x, At j [k] x ∧ Missing x ks := by
  constructor
  · rintro ⟨f, h1, h2 | ⟨x, h2, h3⟩⟩
    · exact .inl ⟨f, h1, .inl h2⟩
    · exact .inr ⟨x, ⟨f, x, h1, h2, rfl⟩, h3⟩
  · rintro (⟨f, h1, h2 | ⟨_, _, h3⟩⟩ | ⟨x, ⟨f, y, h1, h2, h3⟩, h4⟩)
    · exact ⟨f, h1, .inl h2⟩
    · exact h3.elim
    · exact ⟨f, h1, .inr ⟨y, h2, by rw [show y = x from h3]; exact h4⟩⟩

theorem item_keyError_iff (j : Json) (k : Str) : item j k = .error .keyError ↔ Missing j [k] := by
  rw [item_error_iff]
  simp

theorem fulcioCertificates_error_iff (r : Response) :
    fulcioCertificates r = .error .fulcioClient ↔ ∃ j, r.json? = some j ∧ Missing j chainPath := by
  have hk : ∀ x : Py Json, x ≠ .error .fulcioClient →
      (keyErrorToFulcio x = .error .fulcioClient ↔ x = .error .keyError) := by
    intro x hx
    cases x with
    | ok a => simp [keyErrorToFulcio]
    | error e =>
      have : e ≠ .fulcioClient := fun h => hx (by rw [h])
      by_cases h : e = .keyError <;> simp [keyErrorToFulcio, h, this]
  have hi : ∀ j k, item j k ≠ .error .fulcioClient := by
    intro j k h
    rcases (item_error_iff _ _ _).1 h with ⟨h, _⟩ | ⟨h, _⟩ <;> cases h
  have hj : r.json ≠ .error .fulcioClient := by unfold Response.json; cases r.json? <;> simp
  have hj' : r.json ≠ .error .keyError := by unfold Response.json; cases r.json? <;> simp
  unfold fulcioCertificates chainPath
  rw [hk]
  · simp only [bind_error_iff, item_keyError_iff, json_ok_iff, item_ok_iff, hj', false_or]
    constructor
    · rintro ⟨j, h1, h | ⟨s, hs, h | ⟨c, hc, h⟩⟩⟩
      · exact ⟨j, h1, (missing_cons_iff _ _ _).2 (.inl h)⟩
      · exact ⟨j, h1, (missing_cons_iff _ _ _).2 (.inr ⟨s, hs, (missing_cons_iff _ _ _).2 (.inl h)⟩)⟩
      · exact ⟨j, h1, (missing_cons_iff _ _ _).2 (.inr ⟨s, hs, (missing_cons_iff _ _ _).2 (.inr ⟨c, hc, h⟩)⟩)⟩
    · rintro ⟨j, h1, h⟩
      refine ⟨j, h1, ?_⟩
      rcases (missing_cons_iff _ _ _).1 h with h | ⟨s, hs, h⟩
      · exact .inl h
      · rcases (missing_cons_iff _ _ _).1 h with h | ⟨c, hc, h⟩
        · exact .inr ⟨s, hs, .inl h⟩
        · exact .inr ⟨s, hs, .inr ⟨c, hc, h⟩⟩
  · simp only [ne_eq, bind_error_iff, hi, hj, false_or, and_false, exists_false, not_false_eq_true]

theorem loadCertJson_ok_iff (loadPem : Bytes → Option Cert) (j : Json) (c : Cert) :
    loadCertJson loadPem j = .ok c ↔ ∃ t, j = .str t ∧ loadPem (utf8 t) = some c := by
  unfold loadCertJson
  rw [bind_ok_iff]
  cases j with
  | str t =>
    simp only [encode, Except.ok.injEq, exists_eq_left', Json.str.injEq]
    cases loadPem (utf8 t) <;> simp
  | _ => simp [encode]

theorem loadCertJson_not_fulcio (loadPem : Bytes → Option Cert) (j : Json) : loadCertJson loadPem j ≠ .error .fulcioClient := by
  unfold loadCertJson
  rw [ne_eq, bind_error_iff]
  rintro (h | ⟨b, _, h⟩)
  · cases j <;> cases h
  · cases hl : loadPem b <;> rw [hl] at h <;> cases h

theorem forEach_error {α β : Type} {f : α → Py β} {xs : List α} {e : Exc} (h : forEach f xs = .error e) :
    ∃ x ∈ xs, f x = .error e := by
  induction xs with
  | nil => cases h
  | cons x xs ih =>
    rw [forEach] at h
    cases hx : f x with
    | error e' => rw [hx] at h; cases h; exact ⟨x, List.mem_cons_self, hx⟩
    | ok y =>
      rw [hx] at h
      dsimp only at h
      cases hf : forEach f xs with
      | error e' =>
        rw [hf] at h
        cases h
        obtain ⟨z, hz, h⟩ := ih hf
        exact ⟨z, List.mem_cons_of_mem _ hz, h⟩
      | ok ys => rw [hf] at h; cases h

theorem forEach_loads_iff (loadPem : Bytes → Option Cert) (l : List Json) (cs : List Cert) :
    forEach (loadCertJson loadPem) l = .ok cs ↔
      ∃ ts : List Str, l = ts.map .str ∧ ts.map (fun t => loadPem (utf8 t)) = cs.map some := by
  rw [forEach_ok_iff]
  induction l generalizing cs with
  | nil =>
    constructor
    · intro h
      have : cs = [] := by cases cs <;> simp_all
      exact ⟨[], rfl, by rw [this]; rfl⟩
    · rintro ⟨ts, h1, h2⟩
      have : ts = [] := by cases ts <;> simp_all
      subst this
      cases cs <;> simp_all
  | cons a l ih =>
    cases cs with
    | nil =>
      constructor
      · intro h; simp at h
      · rintro ⟨ts, h1, h2⟩
        have : ts = [] := by cases ts <;> simp_all
        subst this
        simp at h1
    | cons c cs =>
      simp only [List.map_cons, List.cons.injEq]
      rw [loadCertJson_ok_iff, ih]
      constructor
      · rintro ⟨⟨t, h1, h2⟩, ts, h3, h4⟩
        exact ⟨t :: ts, by rw [h1, h3]; rfl, by simp [h2, h4]⟩
      · rintro ⟨ts, h1, h2⟩
        cases ts with
        | nil => simp at h1
        | cons t ts =>
          simp only [List.map_cons, List.cons.injEq] at h1 h2
          exact ⟨⟨t, h1.1, h2.1⟩, ts, h1.2, h2.2⟩

/-- **C64** From any response: the Fulcio client returns a certificate and a chain exactly if the status is no error and the
document has a list of at least two texts at the right place, which load as these certificates.  (A single character is no
PEM certificate.) -/
theorem C64_fulcio_http_iff (loads : Str → Option Json) (loadPem : Bytes → Option Cert)
    (hch : ∀ c : Char, loadPem (utf8 [c]) = none) (exchange : Py Response) (cert : Cert) (chain : List Cert) :
    fulcioSigningCert loads loadPem exchange = .ok (cert, chain) ↔
      ∃ r j p ps, exchange = .ok r ∧ ¬ ErrorStatus r.status ∧ r.json? = some j ∧ HasChain j (p :: ps) ∧ chain ≠ [] ∧
        loadPem (utf8 p) = some cert ∧ ps.map (fun t => loadPem (utf8 t)) = chain.map some := by
  unfold fulcioSigningCert
  rw [bind_ok_iff]
  constructor
  · rintro ⟨r, hr, h⟩
    by_cases hs : ErrorStatus r.status
    · rw [checked_error hs, fulcioMessage_error hs] at h; cases h
    · rw [checked_ok hs] at h
      obtain ⟨x, hx, h⟩ := (bind_ok_iff _ _ _).1 h
      obtain ⟨n, hn, h⟩ := (bind_ok_iff _ _ _).1 h
      split at h
      · cases h
      · rename_i hlen
        simp only [bind_ok_iff, loadCertJson_ok_iff, forEach_loads_iff] at h
        obtain ⟨c, hc, cert', ⟨t, rfl, hcert⟩, others, ho, chain', ⟨ts, rfl, hts⟩, he⟩ := h
        cases he
        obtain ⟨j, hj, hat⟩ := (fulcioCertificates_ok_iff _ _).1 hx
        cases x with
        | arr l =>
          cases l with
          | nil => cases hc
          | cons a l =>
            cases hc
            have ho : l = ts.map .str := Except.ok.inj ho
            subst ho
            have hn : n = (ts.map Json.str).length + 1 := by
              have := Except.ok.inj hn
              simpa using this.symm
            refine ⟨r, j, t, ts, hr, hs, hj, hat, ?_, hcert, hts⟩
            rintro rfl
            have : ts = [] := by cases ts <;> simp_all
            subst this
            simp at hn
            omega
        | str s =>
          cases s with
          | nil => cases hc
          | cons a s =>
            have := Json.str.inj (Except.ok.inj hc)
            subst this
            rw [hch] at hcert
            cases hcert
        | obj f => cases hc
        | null => cases hc
        | bool b => cases hc
        | num q => cases hc
  · rintro ⟨r, j, p, ps, hr, hs, hj, hch', hne, hp, hps⟩
    refine ⟨r, hr, ?_⟩
    rw [checked_ok hs]
    refine (bind_ok_iff _ _ _).2 ⟨_, (fulcioCertificates_ok_iff _ _).2 ⟨j, hj, hch'⟩, ?_⟩
    have hlen : ¬ (((p :: ps).map Json.str).length < 2) := by
      have : ps.length = chain.length := by simpa using congrArg List.length hps
      have : chain.length ≠ 0 := fun h => hne (List.length_eq_zero_iff.1 h)
      simp
      omega
    refine (bind_ok_iff _ _ _).2 ⟨_, rfl, ?_⟩
    rw [if_neg hlen]
    simp only [bind_ok_iff, loadCertJson_ok_iff, forEach_loads_iff]
    exact ⟨.str p, rfl, cert, ⟨p, rfl, hp⟩, ps.map .str, rfl, chain, ⟨ps, rfl, hps⟩, rfl⟩

/-- fewer than two elements, members or characters -/
def Short (x : Json) : Prop :=
  (∃ l, x = .arr l ∧ l.length < 2) ∨ (∃ f, x = .obj f ∧ f.length < 2) ∨ ∃ s : Str, x = .str s ∧ s.length < 2

/-- **C81** (partial: what is missing is every other failure, see `C81_other_exceptions`) The Fulcio client raises
`FulcioClientError` exactly for an error status, a document in which a member on the way to the certificates is missing, and
fewer than two certificates. -/
theorem C81_fulcio_error_iff_partial (loads : Str → Option Json) (loadPem : Bytes → Option Cert) (r : Response) :
    fulcioSigningCert loads loadPem (.ok r) = .error .fulcioClient ↔
      ErrorStatus r.status ∨ ∃ j, r.json? = some j ∧ (Missing j chainPath ∨ ∃ x, At j chainPath x ∧ Short x) := by
  unfold fulcioSigningCert
  by_cases hs : ErrorStatus r.status
  · exact ⟨fun _ => .inl hs, fun _ => (C80_error_status_raises r hs).2.2.2.2.2.1 loads loadPem⟩
  · refine ((bind_error_iff _ _ _).trans ?_).trans (or_iff_right hs).symm
    simp only [reduceCtorEq, false_or, Except.ok.injEq, exists_eq_left', checked_ok hs]
    rw [bind_error_iff, fulcioCertificates_error_iff]
    have key : ∀ x, ((do
        let n ← len x
        if n < 2 then .error .fulcioClient
        else do
          let c ← first x
          let cert ← loadCertJson loadPem c
          let others ← rest x
          let chain ← forEach (loadCertJson loadPem) others
          .ok (cert, chain) : Py (Cert × List Cert)) = .error .fulcioClient) ↔ Short x := by
      intro x
      rw [bind_error_iff]
      have htail : ∀ x, ((do
          let c ← first x
          let cert ← loadCertJson loadPem c
          let others ← rest x
          let chain ← forEach (loadCertJson loadPem) others
          .ok (cert, chain) : Py (Cert × List Cert)) ≠ .error .fulcioClient) := by
        intro x
        simp only [ne_eq, bind_error_iff, loadCertJson_not_fulcio, false_or]
        rintro (h | ⟨c, _, cert, _, h | ⟨o, _, h | ⟨ch, _, h⟩⟩⟩)
        · cases x with
          | arr l => cases l <;> cases h
          | str s => cases s <;> cases h
          | _ => cases h
        · cases x <;> cases h
        · obtain ⟨z, _, hz⟩ := forEach_error h
          exact loadCertJson_not_fulcio _ _ hz
        · cases h
      constructor
      · rintro (h | ⟨n, hn, h⟩)
        · cases x <;> cases h
        · split at h
          · rename_i hlt
            cases x with
            | arr l => cases hn; exact .inl ⟨l, rfl, hlt⟩
            | obj f => cases hn; exact .inr (.inl ⟨f, rfl, hlt⟩)
            | str s => cases hn; exact .inr (.inr ⟨s, rfl, hlt⟩)
            | null => cases hn
            | bool b => cases hn
            | num q => cases hn
          · exact absurd h (htail x)
      · rintro (⟨l, rfl, h⟩ | ⟨l, rfl, h⟩ | ⟨l, rfl, h⟩)
        · exact .inr ⟨l.length, rfl, if_pos h⟩
        · exact .inr ⟨l.length, rfl, if_pos h⟩
        · exact .inr ⟨l.length, rfl, if_pos h⟩
    simp only [key, fulcioCertificates_ok_iff]
    constructor
    · rintro (⟨j, h1, h2⟩ | ⟨x, ⟨j, h1, h2⟩, h3⟩)
      · exact ⟨j, h1, .inl h2⟩
      · exact ⟨j, h1, .inr ⟨x, h2, h3⟩⟩
    · rintro ⟨j, h1, h2 | ⟨x, h2, h3⟩⟩
      · exact .inl ⟨j, h1, h2⟩
      · exact .inr ⟨x, ⟨j, h1, h2⟩, h3⟩

/-- a response with status 200 and this document -/
def okJson (j : Option Json) : Response := ⟨200, [], [], j⟩

/-- a document with this value in the place of the certificates -/
def chainDoc (x : Json) : Json :=
  .obj [("signedCertificateEmbeddedSct".toList, .obj [("chain".toList, .obj [("certificates".toList, x)])])]

/-- **C81** refuted ("raised on any error in the Fulcio client"): connection errors, bodies that are no JSON, members of other
types and certificates that do not load raise other exceptions. -/
theorem C81_other_exceptions (loads : Str → Option Json) (loadPem : Bytes → Option Cert) :
    fulcioSigningCert loads loadPem (.error .requestsConnection) = .error .requestsConnection ∧
    fulcioSigningCert loads loadPem (.ok (okJson none)) = .error .requestsJson ∧
    fulcioSigningCert loads loadPem (.ok (okJson (some (.arr [])))) = .error .typeError ∧
    fulcioSigningCert loads loadPem (.ok (okJson (some (chainDoc (.arr [.null, .null]))))) = .error .attributeError ∧
    ∀ t u, loadPem (utf8 t) = none →
      fulcioSigningCert loads loadPem (.ok (okJson (some (chainDoc (.arr [.str t, .str u]))))) = .error .valueError := by
  refine ⟨rfl, rfl, rfl, rfl, fun t u h => ?_⟩
  show loadCertJson loadPem (.str t) >>= _ = .error .valueError
  have : loadCertJson loadPem (.str t) = .error .valueError := by
    show (match loadPem (utf8 t) with | none => .error .valueError | some c => .ok c : Py Cert) = _
    rw [h]
  rw [this]
  rfl

/-- **C81** refuted (the message of the server): the message is looked at only for responses that are true in a condition,
and those with an error status are not; so it is never part of the exception. -/
theorem C81_message_lost (loads : Str → Option Json) (r : Response) (h : ErrorStatus r.status) :
    fulcioMessage loads r = .ok none := fulcioMessage_error h loads

/-- a server's message that is lost, although the text is JSON and has a message -/
example : fulcioMessage (fun _ => some (.obj [("message".toList, .str "bad token".toList)]))
    ⟨401, [], "{\"message\":\"bad token\"}".toList, none⟩ = .ok none :=
  C81_message_lost _ _ ⟨by decide, by decide⟩

/-- a response that succeeds -/
example (c1 c2 : Cert) : fulcioSigningCert (fun _ => none)
    (fun b => if b = [65, 65] then some c1 else if b = [66, 66] then some c2 else none)
    (.ok (okJson (some (chainDoc (.arr [.str "AA".toList, .str "BB".toList]))))) = .ok (c1, [c2]) := rfl

/-- its certificates are a list at the right place -/
example : HasChain (chainDoc (.arr [.str "AA".toList, .str "BB".toList])) ["AA".toList, "BB".toList] :=
  ⟨_, _, rfl, rfl, _, _, rfl, rfl, _, _, rfl, rfl, rfl⟩

/-- too few certificates -/
example : fulcioSigningCert (fun _ => none) (fun _ => none) (.ok (okJson (some (chainDoc (.arr [.str "AA".toList]))))) =
    .error .fulcioClient :=
  (C81_fulcio_error_iff_partial _ _ _).2 (.inr ⟨_, rfl, .inr ⟨_, ⟨_, _, rfl, rfl, _, _, rfl, rfl, _, _, rfl, rfl, rfl⟩,
    .inl ⟨_, rfl, by decide⟩⟩⟩)

/-! ## Timestamp authorities -/

theorem raiseForStatus_ok_iff (r : Response) : r.raiseForStatus = .ok () ↔ ¬ ErrorStatus r.status := by
  unfold Response.raiseForStatus ErrorStatus
  split
  · rename_i h
    simp only [reduceCtorEq, false_iff, not_not]
    exact ⟨h.1, Nat.le_of_lt_succ h.2⟩
  · rename_i h
    simp only [true_iff]
    exact fun h' => h ⟨h'.1, Nat.lt_succ_of_le h'.2⟩

/-- **C82** A timestamp is returned exactly if the request can be built, the authority answers it without an error status, and
the content of that answer decodes. -/
theorem C82_timestamp_ok_iff (build : Bytes → Option Bytes) (send : Bytes → Py Response) (decode : Bytes → Option Tsr)
    (sig : Bytes) (t : Tsr) :
    tsaRequest build send decode sig = .ok t ↔
      ∃ req r, build sig = some req ∧ send req = .ok r ∧ ¬ ErrorStatus r.status ∧ decode r.content = some t := by
  unfold tsaRequest
  cases hb : build sig with
  | none => simp
  | some req =>
    simp only [Option.some.injEq, exists_and_left, exists_eq_left']
    have hsent : ∀ r', (do
        let r ← send req
        let _ ← r.raiseForStatus
        .ok r : Py Response) = .ok r' ↔ send req = .ok r' ∧ ¬ ErrorStatus r'.status := by
      intro r'
      simp only [bind_ok_iff]
      constructor
      · rintro ⟨r, h1, _, h2, h3⟩
        cases h3
        exact ⟨h1, (raiseForStatus_ok_iff _).1 h2⟩
      · rintro ⟨h1, h2⟩
        exact ⟨r', h1, (), (raiseForStatus_ok_iff _).2 h2, rfl⟩
    generalize hx : (do
        let r ← send req
        let _ ← r.raiseForStatus
        .ok r : Py Response) = x at hsent ⊢
    cases x with
    | error e =>
      dsimp only
      constructor
      · intro h; split at h <;> cases h
      · rintro ⟨r, h1, h2, _⟩
        exact absurd ((hsent r).2 ⟨h1, h2⟩) (by simp)
    | ok r =>
      obtain ⟨h1, h2⟩ := (hsent r).1 rfl
      dsimp only
      constructor
      · intro h
        refine ⟨r, h1, h2, ?_⟩
        cases hd : decode r.content with
        | none => rw [hd] at h; cases h
        | some t' => rw [hd] at h; cases h; rfl
      · rintro ⟨r', h1', _, h3⟩
        rw [h1] at h1'
        cases h1'
        rw [h3]

/-- **C82** Every failure is a `TimestampError`, if `requests` only raises `RequestException`s. -/
theorem C82_timestamp_error_only (build : Bytes → Option Bytes) (send : Bytes → Py Response) (decode : Bytes → Option Tsr)
    (hsend : ∀ q e, send q = .error e → e.isRequestException = true) (sig : Bytes) (e : Exc)
    (h : tsaRequest build send decode sig = .error e) : e = .timestamp := by
  unfold tsaRequest at h
  cases hb : build sig with
  | none => rw [hb] at h; cases h; rfl
  | some req =>
    rw [hb] at h
    dsimp only at h
    generalize hx : (do
        let r ← send req
        let _ ← r.raiseForStatus
        .ok r : Py Response) = x at h
    cases x with
    | error e' =>
      have : e'.isRequestException = true := by
        rcases (bind_error_iff _ _ _).1 hx with hx | ⟨r, _, hx⟩
        · exact hsend _ _ hx
        · rcases (bind_error_iff _ _ _).1 hx with hx | ⟨_, _, hx⟩
          · unfold Response.raiseForStatus at hx
            split at hx <;> cases hx
            rfl
          · cases hx
      dsimp only at h
      rw [if_pos this] at h
      cases h
      rfl
    | ok r =>
      dsimp only at h
      cases hd : decode r.content with
      | none => rw [hd] at h; cases h; rfl
      | some t => rw [hd] at h; cases h

/-- a timestamp that is returned, and a timeout -/
example (t : Tsr) : tsaRequest some (fun _ => .ok ⟨201, [1], [], none⟩) (fun _ => some t) [] = .ok t ∧
    tsaRequest some (fun _ => .error .requestsTimeout) (fun _ => some t) [] = .error .timestamp := ⟨rfl, rfl⟩

/-! ## Identity providers -/

theorem oidcValidate_ok_iff (j : Json) (c : OidcConfig) :
    OidcConfig.validate j = .ok c ↔ At j ["authorization_endpoint".toList] (.str c.authorizationEndpoint) ∧
      At j ["token_endpoint".toList] (.str c.tokenEndpoint) := by
  unfold OidcConfig.validate
  cases j with
  | obj f =>
    dsimp only
    constructor
    · intro h
      split at h
      · rename_i a t h1 h2
        cases h
        exact ⟨⟨f, _, rfl, h1, rfl⟩, ⟨f, _, rfl, h2, rfl⟩⟩
      · cases h
    · rintro ⟨⟨f', x, h1, h2, h3⟩, ⟨f'', y, h4, h5, h6⟩⟩
      cases h1
      cases h4
      rw [show x = _ from h3] at h2
      rw [show y = _ from h6] at h5
      rw [h2, h5]
  | null => exact ⟨fun h => (by cases h), fun ⟨⟨_, _, h, _⟩, _⟩ => (by cases h)⟩
  | bool b => exact ⟨fun h => (by cases h), fun ⟨⟨_, _, h, _⟩, _⟩ => (by cases h)⟩
  | num q => exact ⟨fun h => (by cases h), fun ⟨⟨_, _, h, _⟩, _⟩ => (by cases h)⟩
  | str s => exact ⟨fun h => (by cases h), fun ⟨⟨_, _, h, _⟩, _⟩ => (by cases h)⟩
  | arr l => exact ⟨fun h => (by cases h), fun ⟨⟨_, _, h, _⟩, _⟩ => (by cases h)⟩

theorem oidcValidate_error {j : Json} {e : Exc} (h : OidcConfig.validate j = .error e) : e = .pydantic := by
  unfold OidcConfig.validate at h
  split at h
  · split at h <;> cases h
    rfl
  · cases h; rfl

theorem networkError_ok_iff {α : Type} (x : Py α) (a : α) : networkError x = .ok a ↔ x = .ok a := by
  cases x <;> simp [networkError]

/-- the part of `Issuer.__init__` after the status check -/
def readConfig (r : Response) : Py OidcConfig :=
  match (do let j ← r.json; OidcConfig.validate j : Py OidcConfig) with
  | .error e => .error (if e.isValueError then .issuer else e)
  | .ok c => .ok c

theorem readConfig_ok_iff (r : Response) (c : OidcConfig) :
    readConfig r = .ok c ↔ ∃ j, r.json? = some j ∧ OidcConfig.validate j = .ok c := by
  unfold readConfig
  have h : ∀ c, (do let j ← r.json; OidcConfig.validate j : Py OidcConfig) = .ok c ↔
      ∃ j, r.json? = some j ∧ OidcConfig.validate j = .ok c := by
    intro c; simp only [bind_ok_iff, json_ok_iff]
  generalize (do let j ← r.json; OidcConfig.validate j : Py OidcConfig) = x at h ⊢
  cases x with
  | error e => rw [← h]; simp
  | ok c' => rw [← h]

theorem readConfig_error {r : Response} {e : Exc} (h : readConfig r = .error e) : e = .issuer := by
  unfold readConfig at h
  have h' : ∀ e, (do let j ← r.json; OidcConfig.validate j : Py OidcConfig) = .error e → e.isValueError = true := by
    intro e he
    rcases (bind_error_iff _ _ _).1 he with he | ⟨j, _, he⟩
    · unfold Response.json at he
      cases hj : r.json? with
      | none => rw [hj] at he; cases he; rfl
      | some j => rw [hj] at he; cases he
    · rw [oidcValidate_error he]; rfl
  generalize (do let j ← r.json; OidcConfig.validate j : Py OidcConfig) = x at h h'
  cases x with
  | error e' =>
    dsimp only at h
    rw [if_pos (h' e' rfl)] at h
    cases h
    rfl
  | ok c => cases h

/-- **C83** An issuer is constructed exactly from a response without an error status that is a document with the two endpoints as
texts. -/
theorem C83_issuer_ok_iff (exchange : Py Response) (c : OidcConfig) :
    issuerInit exchange = .ok c ↔ ∃ r j, exchange = .ok r ∧ ¬ ErrorStatus r.status ∧ r.json? = some j ∧
      At j ["authorization_endpoint".toList] (.str c.authorizationEndpoint) ∧
      At j ["token_endpoint".toList] (.str c.tokenEndpoint) := by
  unfold issuerInit
  simp only [bind_ok_iff, networkError_ok_iff, checked_ok_iff]
  constructor
  · rintro ⟨r, hr, hs, h⟩
    obtain ⟨j, hj, h⟩ := (readConfig_ok_iff r c).1 h
    exact ⟨r, j, hr, hs, hj, (oidcValidate_ok_iff _ _).1 h⟩
  · rintro ⟨r, j, hr, hs, hj, h⟩
    exact ⟨r, hr, hs, (readConfig_ok_iff r c).2 ⟨j, hj, (oidcValidate_ok_iff _ _).2 h⟩⟩

/-- **C83** (partial: other exceptions of `requests` get through, see `C83_other_exceptions`) Failures are `NetworkError` if the
connection failed or timed out, and `IssuerError` for any response. -/
theorem C83_issuer_error_partial (exchange : Py Response) (e : Exc) (h : issuerInit exchange = .error e) :
    (e = .issuer ∧ ∃ r, exchange = .ok r) ∨
    (e = .network ∧ (exchange = .error .requestsConnection ∨ exchange = .error .requestsTimeout)) ∨
    (exchange = .error e ∧ e ≠ .requestsConnection ∧ e ≠ .requestsTimeout) := by
  unfold issuerInit at h
  cases exchange with
  | error e' =>
    have h : (if e' = .requestsConnection ∨ e' = .requestsTimeout then Exc.network else e') = e := Except.error.inj h
    by_cases hc : e' = .requestsConnection ∨ e' = .requestsTimeout
    · rw [if_pos hc] at h
      refine .inr (.inl ⟨h.symm, ?_⟩)
      rcases hc with rfl | rfl
      · exact .inl rfl
      · exact .inr rfl
    · rw [if_neg hc] at h; subst h; exact .inr (.inr ⟨rfl, fun h => hc (.inl h), fun h => hc (.inr h)⟩)
  | ok r =>
    refine .inl ⟨?_, r, rfl⟩
    by_cases hs : ErrorStatus r.status
    · exact (Except.error.inj ((checked_error hs _ _).symm.trans h)).symm
    · exact readConfig_error ((checked_ok hs _ _).symm.trans h)

/-- **C83** refuted ("raised on any communication or format error with an OIDC issuer"): a redirect loop, for instance, raises an
exception of `requests`. -/
theorem C83_other_exceptions : ∃ exchange : Py Response, (∀ e, exchange = .error e → e.isRequestException = true) ∧
    ∃ e, issuerInit exchange = .error e ∧ e ≠ .issuer ∧ e ≠ .network :=
  ⟨.error .requestsOther, fun e h => by cases h; rfl, _, rfl, by decide, by decide⟩

example : issuerInit (.ok (okJson (some (.obj [("token_endpoint".toList, .str "t".toList), ("x".toList, .null),
    ("authorization_endpoint".toList, .str "a".toList)])))) = .ok ⟨"a".toList, "t".toList⟩ := rfl

example : issuerInit (.error .requestsTimeout) = .error .network := rfl

/-! ## Identity tokens -/

theorem getOr_ok_iff (j : Json) (k : Str) (v : Json) :
    getOr j k = .ok v ↔ ∃ f, j = .obj f ∧ (Dict.get? f k).getD .null = v := by
  unfold getOr getOrNull
  cases j with
  | obj f => simp
  | _ => simp

/-- a token response: no error (absent or null), and the token as a text -/
def GrantsToken (j : Json) (raw : Str) : Prop :=
  (Missing j ["error".toList] ∨ At j ["error".toList] .null) ∧ At j ["access_token".toList] (.str raw)

/-- **C84** A token is obtained from the token endpoint exactly if the response has no error status and is a document that reports
no error and has the token as a text, and that token is acceptable (C40). -/
theorem C84_exchange_ok_iff (libs : Libs) (now : ℚ) (clientId : Str) (exchange : Py Response) (t : IdentityToken) :
    tokenExchange libs now clientId exchange = .ok t ↔
      ∃ r j raw, exchange = .ok r ∧ ¬ ErrorStatus r.status ∧ r.json? = some j ∧ GrantsToken j raw ∧
        IdentityToken.init libs now raw clientId = .ok t := by
  unfold tokenExchange
  simp only [bind_ok_iff, networkError_ok_iff, checked_ok_iff, json_ok_iff]
  constructor
  · rintro ⟨r, hr, hs, j, hj, err, herr, h⟩
    obtain ⟨f, rfl, hf⟩ := (getOr_ok_iff _ _ _).1 herr
    cases err with
    | null =>
      obtain ⟨token, htok, h⟩ := (bind_ok_iff _ _ _).1 h
      cases token with
      | str raw =>
        refine ⟨r, _, raw, hr, hs, hj, ⟨?_, (item_ok_iff _ _ _).1 htok⟩, h⟩
        cases hg : Dict.get? f "error".toList with
        | none => exact .inl ⟨f, rfl, .inl hg⟩
        | some x =>
          rw [hg] at hf
          exact .inr ⟨f, x, rfl, hg, hf⟩
      | null => cases h
      | bool b => cases h
      | num q => cases h
      | arr l => cases h
      | obj f => cases h
    | str s => cases h
    | bool b => cases h
    | num q => cases h
    | arr l => cases h
    | obj f => cases h
  · rintro ⟨r, j, raw, hr, hs, hj, ⟨herr, htok⟩, h⟩
    refine ⟨r, hr, hs, j, hj, .null, ?_, ?_⟩
    · rw [getOr_ok_iff]
      rcases herr with ⟨f, h1, h2 | ⟨_, _, h3⟩⟩ | ⟨f, x, h1, h2, h3⟩
      · exact ⟨f, h1, by rw [h2]; rfl⟩
      · exact h3.elim
      · exact ⟨f, h1, by rw [h2]; exact h3⟩
    · exact (bind_ok_iff _ _ _).2 ⟨_, (item_ok_iff _ _ _).2 htok, h⟩

/-- **C84** In the browser flow, for every schedule and all requests to the local server: an identity token was granted by the token
endpoint in reply to the code of the first redirect, which carried the session's state and no error; that request had the redirect
URI of the authorization request and the verifier of its challenge; and the token is one that names an identity and is in its
validity period (C40). -/
theorem C84_browser_token (olibs : OAuth.Libs) (s : OAuth.Session) (requests : List Str) (schedule : List OAuth.Thread)
    (input : Str) (libs : Libs) (now : ℚ) (clientId : Str) (send : OAuth.TokenRequest → Py Response) (t : IdentityToken)
    (h : identityToken libs now clientId s input send (OAuth.run olibs s (.init true requests) schedule) = some (.ok t)) :
    ∃ req r j, send req = .ok r ∧ ¬ ErrorStatus r.status ∧ r.json? = some j ∧ GrantsToken j t.raw ∧
      IdentityToken.init libs now t.raw clientId = .ok t ∧ InWindow now t.nbf t.exp ∧
      (∃ served target rest q, requests = served ++ target :: rest ∧ (∀ x ∈ served, isCallback olibs x = false) ∧
        isCallback olibs target = true ∧ q = olibs.parseQs (olibs.split target).2 ∧ Dict.get? q "error".toList = none ∧
        (∃ l, Dict.get? q "state".toList = some (s.state :: l)) ∧ ∃ l, Dict.get? q "code".toList = some (req.code :: l)) ∧
      ∀ a ∈ (OAuth.run olibs s (.init true requests) schedule).issued,
        a.redirectUri = req.redirectUri ∧ a.state = s.state ∧
        a.codeChallenge = OAuth.urlsafeB64 (olibs.sha256 (utf8 req.codeVerifier)) := by
  unfold identityToken at h
  cases hreq : OAuth.tokenRequest s input (OAuth.run olibs s (.init true requests) schedule) with
  | none => rw [hreq] at h; cases h
  | some x =>
    cases x with
    | error e => rw [hreq] at h; cases h
    | ok req =>
      rw [hreq] at h
      have h := Option.some.inj h
      obtain ⟨r, j, raw, hr, hs, hj, hg, hi⟩ := (C84_exchange_ok_iff _ _ _ _ _).1 h
      obtain ⟨_, _, hraw, _, _, _, _, _, hw, _⟩ := (C40_token_iff _ _ _ _ _).1 hi
      subst hraw
      obtain ⟨h1, h2⟩ := (C41_browser_flow olibs s requests schedule input).2 req hreq
      exact ⟨req, r, j, hr, hs, hj, hg, hi, hw, h1, h2⟩

/-- **C84** When the browser flow ends, for every schedule and all requests to the local server: it waits exactly as long as no
request served is a redirect.  The first redirect decides: if it reports no error and has the session's state and a code, the
result is that of the token endpoint for this code – a token or its failure; otherwise the flow fails without a request. -/
theorem C84_browser_outcome (olibs : OAuth.Libs) (s : OAuth.Session) (requests : List Str) (schedule : List OAuth.Thread)
    (input : Str) (libs : Libs) (now : ℚ) (clientId : Str) (send : OAuth.TokenRequest → Py Response) :
    ∃ served, requests = served ++ (OAuth.run olibs s (.init true requests) schedule).requests ∧
      (identityToken libs now clientId s input send (OAuth.run olibs s (.init true requests) schedule) = none ↔
        ∀ x ∈ served, isCallback olibs x = false) ∧
      ∀ before target after q, served = before ++ target :: after → (∀ x ∈ before, isCallback olibs x = false) →
        isCallback olibs target = true → q = olibs.parseQs (olibs.split target).2 →
        (∀ code l l', Dict.get? q "error".toList = none → Dict.get? q "state".toList = some (s.state :: l) →
          Dict.get? q "code".toList = some (code :: l') →
          identityToken libs now clientId s input send (OAuth.run olibs s (.init true requests) schedule) =
            some (tokenExchange libs now clientId (send ⟨s.baseUri ++ "/auth/callback".toList, code, s.codeVerifier⟩))) ∧
        (¬ (Dict.get? q "error".toList = none ∧ (∃ l, Dict.get? q "state".toList = some (s.state :: l)) ∧
            ∃ code l, Dict.get? q "code".toList = some (code :: l)) →
          ∃ e, ∀ send', identityToken libs now clientId s input send' (OAuth.run olibs s (.init true requests) schedule) =
            some (.error e)) := by
  obtain ⟨h1, h2, -, -, -⟩ := browser_invariant olibs s requests schedule
  obtain ⟨served, hreq, hresp⟩ := C41_first_response olibs s true requests schedule
  generalize OAuth.run olibs s (.init true requests) schedule = m at h1 h2 hreq hresp
  refine ⟨served, hreq, ?_, ?_⟩
  · unfold identityToken OAuth.tokenRequest
    rw [h1]
    dsimp only
    cases hf : served.find? (isCallback olibs) with
    | none =>
      rw [hf] at hresp
      rw [hresp]
      refine ⟨fun _ x hx => ?_, fun _ => rfl⟩
      have := List.find?_eq_none.1 hf x hx
      simpa using this
    | some target =>
      rw [hf] at hresp
      rw [hresp, Option.map_some]
      dsimp only
      refine ⟨fun h => ?_, fun h => ?_⟩
      · cases hc : OAuth.checkResponse s.state (olibs.parseQs (olibs.split target).2) <;> rw [hc] at h <;> cases h
      · have h' := h target (List.mem_of_find?_eq_some hf)
        rw [List.find?_some hf] at h'
        cases h'
  · rintro before target after q hs hb ht rfl
    have hf : served.find? (isCallback olibs) = some target := by
      rw [List.find?_eq_some_iff_append]
      exact ⟨ht, before, after, hs, fun x hx => by rw [hb x hx]; rfl⟩
    rw [hf, Option.map_some] at hresp
    constructor
    · intro code l l' e1 e2 e3
      unfold identityToken OAuth.tokenRequest
      rw [h1, hresp]
      dsimp only
      rw [(C41_code_iff s.state _ code).2 ⟨e1, ⟨l, e2⟩, l', e3⟩, h2]
      rfl
    · intro hn
      cases hc : OAuth.checkResponse s.state (olibs.parseQs (olibs.split target).2) with
      | ok code =>
        obtain ⟨e1, e2, l, e3⟩ := (C41_code_iff _ _ _).1 hc
        exact absurd ⟨e1, e2, code, l, e3⟩ hn
      | error e =>
        refine ⟨e, fun send' => ?_⟩
        unfold identityToken OAuth.tokenRequest
        rw [h1, hresp]
        dsimp only
        rw [hc]

/-- **C85** (partial: see `C85_other_exceptions`) If the token endpoint can be reached, or the connection fails or times out, and
its responses are JSON objects with an error or a token, then failures are `IdentityError`s or `NetworkError`s, but for tokens that
raise another exception (C66). -/
theorem C85_exchange_error_partial (libs : Libs) (now : ℚ) (clientId : Str) (exchange : Py Response) (e : Exc)
    (hx : ∀ e', exchange = .error e' → e' = .requestsConnection ∨ e' = .requestsTimeout)
    (hr : ∀ r, exchange = .ok r → ¬ ErrorStatus r.status → ∃ f, r.json? = some (.obj f) ∧
      ((∃ x, At (.obj f) ["error".toList] x ∧ x ≠ .null) ∨ ∃ x, At (.obj f) ["access_token".toList] x))
    (h : tokenExchange libs now clientId exchange = .error e) :
    e = .network ∨ e = .identity ∨ ∃ raw, IdentityToken.init libs now raw clientId = .error e := by
  unfold tokenExchange at h
  cases exchange with
  | error e' =>
    have h : (if e' = .requestsConnection ∨ e' = .requestsTimeout then Exc.network else e') = e := Except.error.inj h
    rw [if_pos (hx e' rfl)] at h
    exact .inl h.symm
  | ok r =>
    by_cases hs : ErrorStatus r.status
    · exact .inr (.inl (Except.error.inj ((checked_error hs _ _).symm.trans h)).symm)
    · obtain ⟨f, hj, hf⟩ := hr r rfl hs
      have h := (checked_ok hs _ _).symm.trans h
      have hjson : r.json = .ok (.obj f) := (json_ok_iff _ _).2 hj
      rw [hjson] at h
      have h : (match getOrNull f "error".toList with
        | .null => (item (.obj f) "access_token".toList >>= fun token =>
          match token with
          | .str raw => IdentityToken.init libs now raw clientId
          | _ => .error .identity)
        | _ => .error .identity : Py IdentityToken) = .error e := h
      cases herr : getOrNull f "error".toList with
      | null =>
        rw [herr] at h
        dsimp only at h
        rcases (bind_error_iff _ _ _).1 h with h | ⟨x, _, h⟩
        · rcases hf with ⟨x, ⟨f', y, h1, h2, h3⟩, hne⟩ | ⟨x, hat⟩
          · cases h1
            unfold getOrNull at herr
            rw [h2] at herr
            exact absurd ((show y = x from h3).symm.trans herr) hne
          · rw [(item_ok_iff _ _ _).2 hat] at h; cases h
        · cases x with
          | str raw => exact .inr (.inr ⟨raw, h⟩)
          | null => cases h; exact .inr (.inl rfl)
          | bool b => cases h; exact .inr (.inl rfl)
          | num q => cases h; exact .inr (.inl rfl)
          | arr l => cases h; exact .inr (.inl rfl)
          | obj f => cases h; exact .inr (.inl rfl)
      | str s => rw [herr] at h; cases h; exact .inr (.inl rfl)
      | bool b => rw [herr] at h; cases h; exact .inr (.inl rfl)
      | num q => rw [herr] at h; cases h; exact .inr (.inl rfl)
      | arr l => rw [herr] at h; cases h; exact .inr (.inl rfl)
      | obj f => rw [herr] at h; cases h; exact .inr (.inl rfl)

/-- **C85** refuted: a response that is no JSON, no object, or has neither error nor token, raises `JSONDecodeError`,
`AttributeError` or `KeyError`. -/
theorem C85_other_exceptions (libs : Libs) (now : ℚ) (clientId : Str) :
    tokenExchange libs now clientId (.ok (okJson none)) = .error .requestsJson ∧
    tokenExchange libs now clientId (.ok (okJson (some (.arr [])))) = .error .attributeError ∧
    tokenExchange libs now clientId (.ok (okJson (some (.obj [])))) = .error .keyError :=
  ⟨rfl, rfl, rfl⟩

/-- a token that is granted -/
example : ∃ t, tokenExchange (exLibs (.str "a@b".toList) (.num 10) (.num 20) google) 15 "sigstore".toList
    (.ok (okJson (some (.obj [("access_token".toList, .str "t".toList)])))) = .ok t := by
  have hi := exInit_eq (.str "a@b".toList) (.num 10) (.num 20) google 15
    ⟨⟨20, rfl, by norm_num⟩, .inr ⟨10, rfl, by norm_num⟩⟩ "a@b".toList rfl
  exact ⟨_, (C84_exchange_ok_iff _ _ _ _ _).2 ⟨_, _, _, rfl, fun h => absurd h.1 (by decide), rfl,
    ⟨.inl ⟨_, rfl, .inl rfl⟩, ⟨_, _, rfl, rfl, rfl⟩⟩, hi⟩⟩

/-! ## Signing through the clients -/

/-- **C80** A bundle that signing returns holds a log entry that the log described in a response without an error status to the
request for it, and timestamps that are contents of authorities' responses without an error status. -/
theorem C80_signed_bundle (env : Env) (ctx : Context) (kp : KeyPairs) (a : Answers) (s : Signer) (w w' : World) (call : Call)
    (b : Bundle) (libs : EntryLibs) (sendLog : Rekor.EntryRequest → Py Response)
    (build : Bytes → Option Bytes) (decode : Bytes → Option Tsr) (sendTsas : List (Bytes → Py Response))
    (hlog : ∀ req, a.rekor req = rekorEntriesPost libs (sendLog req))
    (htsas : a.tsas = sendTsas.map fun send => tsaRequest build send decode)
    (h : s.sign env ctx kp a w call = (.ok b, w')) :
    (∃ req r j, sendLog req = .ok r ∧ ¬ ErrorStatus r.status ∧ r.json? = some j ∧ DescribesV1 libs j b.entry) ∧
    ∀ raw ∈ b.inner.timestamps, ∃ send ∈ sendTsas, ∃ req r t, send req = .ok r ∧ ¬ ErrorStatus r.status ∧
      decode r.content = some t ∧ t.raw = raw := by
  obtain ⟨cert, w₁, k, req, ts, entry, _, _, _, _, hts, he, hb⟩ := (sign_ok_iff _ _ _ _ _ _ _ _ _).1 h
  obtain ⟨_, _, _, hentry, htimes, _⟩ := fromParts_content hb
  rw [hlog] at he
  obtain ⟨r, j, h1, h2, h3, h4⟩ := (C80_rekor_ok_iff _ _ _).1 he
  refine ⟨⟨req, r, j, h1, h2, h3, by rw [hentry]; exact h4⟩, ?_⟩
  intro raw hraw
  rw [htimes] at hraw
  obtain ⟨t, ht, rfl⟩ := List.mem_map.1 hraw
  obtain ⟨_, hans⟩ := (collectTimestamps_ok_iff _ _ _).1 hts
  rw [hans] at ht
  obtain ⟨tsa, htsa, hok⟩ : ∃ tsa ∈ a.tsas, tsa (signatureFor env.crypto kp k a.nonce call) = .ok t := by
    unfold answered at ht
    obtain ⟨tsa, h1, h2⟩ := List.mem_filterMap.1 ht
    refine ⟨tsa, h1, ?_⟩
    cases hx : tsa (signatureFor env.crypto kp k a.nonce call) with
    | error e => rw [hx] at h2; cases h2
    | ok t' => rw [hx] at h2; cases h2; rfl
  rw [htsas] at htsa
  obtain ⟨send, hsend, rfl⟩ := List.mem_map.1 htsa
  obtain ⟨q, r, _, g2, g3, g4⟩ := (C82_timestamp_ok_iff _ _ _ _ _).1 hok
  exact ⟨send, hsend, q, r, t, g2, g3, g4, rfl⟩

/-- libraries of a client that reads hashedrekord entries -/
def exRekordLibs : EntryLibs := { exEntryLibs with parseEntry := fun _ => some (some ("hashedrekord".toList, "0.0.1".toList)) }

/-- the log's response, as the example's log would render its entry -/
def exLogResponse : Response :=
  ⟨201, [], [], some (renderV1Json "u".toList 0 [4, 20, 0, 0] 1500 exPromise exBody ⟨0, [0, 20], 1, [], some exEnv1⟩ exEnv1)⟩

/-- authorities: one answers with an error status, one with a timestamp -/
def exTsaResponses : List (Bytes → Py Response) := [fun _ => .ok ⟨500, [7], [], none⟩, fun _ => .ok ⟨201, [7], [], none⟩]

/-- the answers of the clients that get these responses -/
def exHttpAnswers : Answers :=
  { exAnswers 1500000000 with
    rekor := fun _ => rekorEntriesPost exRekordLibs (.ok exLogResponse)
    tsas := exTsaResponses.map fun send => tsaRequest some send exSEnv.decodeTsr }

/-- **C80** is not vacuous: signing through the clients returns the bundle of the signing example -/
example : exCached.sign exSEnv exCtx exKeys exHttpAnswers ⟨1, [⟨exSigner.pubKey⟩]⟩ (.artifact (.bytes exArtifact)) =
    (.ok exReturned, ⟨1, [⟨exSigner.pubKey⟩]⟩) := by decide

example : (∃ req r j, (fun _ : Rekor.EntryRequest => Except.ok (ε := Exc) exLogResponse) req = .ok r ∧ ¬ ErrorStatus r.status ∧
    r.json? = some j ∧ DescribesV1 exRekordLibs j exReturned.entry) ∧
    ∀ raw ∈ exReturned.inner.timestamps, ∃ send ∈ exTsaResponses, ∃ req r t, send req = .ok r ∧ ¬ ErrorStatus r.status ∧
      exSEnv.decodeTsr r.content = some t ∧ t.raw = raw :=
  C80_signed_bundle exSEnv exCtx exKeys exHttpAnswers exCached ⟨1, [⟨exSigner.pubKey⟩]⟩
    ⟨1, [⟨exSigner.pubKey⟩]⟩ (.artifact (.bytes exArtifact)) _ exRekordLibs (fun _ => .ok exLogResponse) some _ exTsaResponses (fun _ => rfl) rfl (by decide)

end Sigstore.Props
