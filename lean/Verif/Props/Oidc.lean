import Verif.Spec.Oidc
import Mathlib.Tactic.NormNum
import Mathlib.Data.Rat.Cast.Order

/-!
# C40, C66: identity tokens
-/

namespace Sigstore.Props

open Sigstore.Oidc Sigstore.Spec

theorem inValidityPeriod_true_iff (now : ℚ) (nbf exp : Json) :
    Oidc.inValidityPeriod now nbf exp = .ok true ↔ InWindow now nbf exp := by
  have hgt : pyGt now exp = .ok true ↔ ∃ e, exp.numeric = some e ∧ now < e := by
    unfold pyGt
    cases exp.numeric <;> simp
  have hle : pyLe nbf now = .ok true ↔ ∃ n, nbf.numeric = some n ∧ n ≤ now := by
    unfold pyLe
    cases nbf.numeric <;> simp
  unfold InWindow
  by_cases hn : nbf = .null
  · subst hn
    simp only [Oidc.inValidityPeriod, hgt, true_or, and_true]
  · have : Oidc.inValidityPeriod now nbf exp = (match pyLe nbf now with
      | .error e => .error e
      | .ok false => .ok false
      | .ok true => pyGt now exp) := by
      cases nbf <;> first | rfl | exact absurd rfl hn
    rw [this, ← hgt, ← hle]
    simp only [hn, false_or]
    cases h : pyLe nbf now with
    | error e => simp
    | ok b => cases b <;> simp

theorem lookupIssuer_cases (iss : Json) :
    (lookupIssuer iss = .error .typeError ∧ ((∃ l, iss = .arr l) ∨ ∃ f, iss = .obj f)) ∨
    ((∀ l, iss ≠ .arr l) ∧ (∀ f, iss ≠ .obj f) ∧
      ∃ o, lookupIssuer iss = .ok o ∧ IdentityClaim iss (o.getD "sub".toList)) := by
  cases iss with
  | arr l => exact .inl ⟨rfl, .inl ⟨l, rfl⟩⟩
  | obj f => exact .inl ⟨rfl, .inr ⟨f, rfl⟩⟩
  | null => exact .inr ⟨by simp, by simp, none, rfl, .inr ⟨rfl, by simp⟩⟩
  | bool b => exact .inr ⟨by simp, by simp, none, rfl, .inr ⟨rfl, by simp⟩⟩
  | num q => exact .inr ⟨by simp, by simp, none, rfl, .inr ⟨rfl, by simp⟩⟩
  | str s =>
    refine .inr ⟨by simp, by simp, knownIssuers.get? s, rfl, ?_⟩
    unfold knownIssuers IdentityClaim
    simp only [Json.str.injEq, exists_eq_left', forall_eq']
    by_cases h1 : "https://accounts.google.com".toList = s
    · subst h1; left; exact ⟨by decide, .inl rfl⟩
    · by_cases h2 : "https://oauth2.sigstore.dev/auth".toList = s
      · subst h2; left; exact ⟨by decide, .inr (.inl rfl)⟩
      · by_cases h3 : "https://oauth2.sigstage.dev/auth".toList = s
        · subst h3; left; exact ⟨by decide, .inr (.inr rfl)⟩
        · right
          refine ⟨?_, fun h => h1 h.symm, fun h => h2 h.symm, fun h => h3 h.symm⟩
          rw [Dict.get?, if_neg h1, Dict.get?, if_neg h2, Dict.get?, if_neg h3, Dict.get?]
          split <;> rfl

theorem identityClaim_unique {iss : Json} {a b : Str} (ha : IdentityClaim iss a) (hb : IdentityClaim iss b) : a = b := by
  rcases ha with ⟨rfl, s, rfl, h⟩ | ⟨rfl, h⟩ <;> rcases hb with ⟨rfl, s', h1, h'⟩ | ⟨rfl, h'⟩
  · rfl
  · obtain ⟨n1, n2, n3⟩ := h' s rfl
    rcases h with h | h | h
    · exact absurd h n1
    · exact absurd h n2
    · exact absurd h n3
  · obtain ⟨n1, n2, n3⟩ := h s' h1
    rcases h' with h | h | h
    · exact absurd h n1
    · exact absurd h n2
    · exact absurd h n3
  · rfl

theorem identityOf_ok_iff (libs : Libs) (claims : Claims) (iss : Json) (id : Str) :
    identityOf libs claims iss = .ok id ↔
      (∀ l, iss ≠ .arr l) ∧ (∀ f, iss ≠ .obj f) ∧
      ∃ k v, IdentityClaim iss k ∧ claims.get? k = some v ∧ id = libs.str v := by
  unfold identityOf
  rcases lookupIssuer_cases iss with ⟨h, h'⟩ | ⟨ha, hf, o, h, hc⟩
  · rw [h]
    simp only [reduceCtorEq, false_iff]
    rintro ⟨ha, hf, _⟩
    rcases h' with ⟨l, rfl⟩ | ⟨f, rfl⟩
    · exact ha l rfl
    · exact hf f rfl
  · rw [h]
    have key : (∃ k v, IdentityClaim iss k ∧ claims.get? k = some v ∧ id = libs.str v) ↔
        ∃ v, claims.get? (o.getD "sub".toList) = some v ∧ id = libs.str v := by
      constructor
      · rintro ⟨k, v, hk, h1, h2⟩
        rw [identityClaim_unique hk hc] at h1
        exact ⟨v, h1, h2⟩
      · rintro ⟨v, h1, h2⟩
        exact ⟨_, v, hc, h1, h2⟩
    rw [key]
    simp only [ha, hf, ne_eq, not_false_eq_true, implies_true, true_and]
    cases o with
    | none =>
      dsimp only [Option.getD_none]
      cases claims.get? "sub".toList <;> simp [eq_comm]
    | some k =>
      dsimp only [Option.getD_some]
      cases claims.get? k <;> simp [eq_comm]

theorem federatedIssuerOf_ok_iff (claims : Claims) (o : Option Str) :
    federatedIssuerOf claims = .ok o ↔ Federated claims o := by
  unfold federatedIssuerOf
  constructor
  · intro h
    unfold getOrNull at h
    cases hc : claims.get? "federated_claims".toList with
    | none => rw [hc] at h; simp at h; subst h; exact .absent hc
    | some j =>
      rw [hc] at h
      dsimp only [Option.getD_some] at h
      cases j with
      | null => simp at h; subst h; exact .null hc
      | obj fields =>
        dsimp only at h
        cases hf : Dict.get? fields "connector_id".toList with
        | none => rw [hf] at h; simp at h; subst h; exact .noConnector _ hc (.inl hf)
        | some v =>
          rw [hf] at h
          cases v <;> simp at h <;> subst h
          · exact .noConnector _ hc (.inr hf)
          · exact .connector _ _ hc hf
      | _ => simp at h
  · intro h
    unfold getOrNull
    cases h with
    | absent h => rw [h]; rfl
    | null h => rw [h]; rfl
    | noConnector fields h hc =>
      rw [h]
      dsimp only [Option.getD_some]
      rcases hc with hc | hc <;> rw [hc] <;> rfl
    | connector fields s h hc =>
      rw [h]
      dsimp only [Option.getD_some]
      rw [hc]; rfl

/-- **C40** A token is constructed exactly if its claims decode, it has an issuer (no list or dictionary), it is inside its
window, and has the identity claim of its issuer, which is the identity; and its federated claims are well-formed. -/
theorem C40_token_iff (libs : Libs) (now : ℚ) (raw clientId : Str) (t : IdentityToken) :
    IdentityToken.init libs now raw clientId = .ok t ↔
      ∃ claims, libs.decode now raw clientId = some claims ∧ t.raw = raw ∧
        claims.get? "iss".toList = some t.iss ∧ (∀ l, t.iss ≠ .arr l) ∧ (∀ f, t.iss ≠ .obj f) ∧
        claims.get? "exp".toList = some t.exp ∧ t.nbf = (claims.get? "nbf".toList).getD .null ∧
        InWindow now t.nbf t.exp ∧
        (∃ k v, IdentityClaim t.iss k ∧ claims.get? k = some v ∧ t.identity = libs.str v) ∧
        Federated claims t.federatedIssuer := by
  unfold IdentityToken.init
  cases hd : libs.decode now raw clientId with
  | none => simp
  | some claims =>
    simp only [Option.some.injEq, exists_eq_left']
    cases hi : claims.get? "iss".toList with
    | none => simp
    | some iss =>
      dsimp only
      cases he : claims.get? "exp".toList with
      | none => simp
      | some exp =>
        dsimp only
        have hv := inValidityPeriod_true_iff now (getOrNull claims "nbf".toList) exp
        have hid := identityOf_ok_iff libs claims iss
        have hfd := federatedIssuerOf_ok_iff claims
        obtain ⟨traw, tiss, tnbf, texp, tid, tfed⟩ := t
        dsimp only
        constructor
        · intro h
          cases hw : Oidc.inValidityPeriod now (getOrNull claims "nbf".toList) exp with
          | error e => rw [hw] at h; simp at h
          | ok b =>
            rw [hw] at h hv
            cases b with
            | false => simp at h
            | true =>
              dsimp only at h
              cases hq : identityOf libs claims iss with
              | error e => rw [hq] at h; simp at h
              | ok identity =>
                rw [hq] at h
                dsimp only at h
                cases hf : federatedIssuerOf claims with
                | error e => rw [hf] at h; simp at h
                | ok fed =>
                  rw [hf] at h
                  simp only [Except.ok.injEq, IdentityToken.mk.injEq] at h
                  obtain ⟨rfl, rfl, rfl, rfl, rfl, rfl⟩ := h
                  obtain ⟨h1, h2, h3⟩ := (hid _).1 hq
                  exact ⟨rfl, rfl, h1, h2, rfl, rfl, hv.1 rfl, h3, (hfd _).1 hf⟩
        · rintro ⟨rfl, h1, h2, h3, h4, rfl, h6, h7, h8⟩
          cases h1
          cases h4
          have hw := hv.2 h6
          rw [hw]
          dsimp only
          rw [(hid _).2 ⟨h2, h3, h7⟩]
          dsimp only
          rw [(hfd _).2 h8]
          rfl

/-- **C40** On a constructed token the validity check never raises, and holds at a time exactly if the time is at or after
`nbf` (if present) and before `exp`. -/
theorem C40_in_validity_period (libs : Libs) (now : ℚ) (raw clientId : Str) (t : IdentityToken)
    (h : IdentityToken.init libs now raw clientId = .ok t) (later : ℚ) :
    (t.inValidityPeriod later = .ok true ∨ t.inValidityPeriod later = .ok false) ∧
    (t.inValidityPeriod later = .ok true ↔ InWindow later t.nbf t.exp) := by
  obtain ⟨_, _, _, _, _, _, _, _, hw, _⟩ := (C40_token_iff _ _ _ _ _).1 h
  refine ⟨?_, inValidityPeriod_true_iff _ _ _⟩
  obtain ⟨⟨e, he, _⟩, hn⟩ := hw
  have hgt : pyGt later t.exp = .ok (decide (later < e)) := by unfold pyGt; rw [he]
  have hb : ∀ b : Bool, (Except.ok b : Py Bool) = .ok true ∨ (Except.ok b : Py Bool) = .ok false := by
    intro b; cases b <;> simp
  unfold IdentityToken.inValidityPeriod
  rcases hn with hn | ⟨n, hn, _⟩
  · rw [hn]; simp only [Oidc.inValidityPeriod, hgt]; exact hb _
  · have hle : pyLe t.nbf later = .ok (decide (n ≤ later)) := by unfold pyLe; rw [hn]
    have : Oidc.inValidityPeriod later t.nbf t.exp = (match pyLe t.nbf later with
      | .error e => .error e
      | .ok false => .ok false
      | .ok true => pyGt later t.exp) := by
      cases hnb : t.nbf <;> first | rfl | (rw [hnb] at hn; simp [Json.numeric] at hn)
    rw [this, hle, hgt]
    by_cases hc : n ≤ later
    · rw [decide_eq_true hc]; exact hb _
    · rw [decide_eq_false hc]; exact .inr rfl

/-- **C40** The client is the audience, or one of the audiences, of a constructed token. -/
theorem C40_audience (libs : Libs) (hj : JwtContract libs) (now : ℚ) (raw clientId : Str) (t : IdentityToken)
    (h : IdentityToken.init libs now raw clientId = .ok t) :
    ∃ claims, libs.decode now raw clientId = some claims ∧
      (claims.get? "aud".toList = some (.str clientId) ∨
        ∃ l, claims.get? "aud".toList = some (.arr l) ∧ .str clientId ∈ l) := by
  obtain ⟨claims, hd, _⟩ := (C40_token_iff _ _ _ _ _).1 h
  exact ⟨claims, hd, (hj _ _ _ _ hd).2⟩

/-- claims of a token of a known issuer, valid from 10 to 20 -/
def exClaims (email nbf exp iss : Json) : Claims :=
  [("aud".toList, .arr [.str "x".toList, .str "sigstore".toList]), ("sub".toList, .str "1".toList),
   ("iat".toList, .num 10), ("exp".toList, exp), ("iss".toList, iss), ("nbf".toList, nbf), ("email".toList, email),
   ("federated_claims".toList, .obj [("connector_id".toList, .str "idp".toList)])]

/-- a decoder that knows one token of the client `sigstore` -/
def exLibs (email nbf exp iss : Json) : Libs where
  decode := fun _ raw client =>
    if raw = "t".toList ∧ client = "sigstore".toList then some (exClaims email nbf exp iss) else none
  repr := fun _ => []

theorem exLibs_contract (email nbf exp iss : Json) (he : exp ≠ .null) (hi : iss ≠ .null) :
    JwtContract (exLibs email nbf exp iss) := by
  intro now raw client claims h
  unfold exLibs at h
  dsimp only at h
  split at h
  · rename_i hc
    cases h
    obtain ⟨_, rfl⟩ := hc
    refine ⟨?_, .inr ⟨_, rfl, by simp⟩⟩
    intro k hk
    simp only [List.mem_cons, List.not_mem_nil, or_false] at hk
    rcases hk with rfl | rfl | rfl | rfl | rfl
    · exact ⟨_, rfl, by simp⟩
    · exact ⟨_, rfl, by simp⟩
    · exact ⟨_, rfl, by simp⟩
    · exact ⟨_, rfl, he⟩
    · exact ⟨_, rfl, hi⟩
  · cases h

/-- Google as issuer -/
def google : Json := .str "https://accounts.google.com".toList

theorem exInit_eq (email nbf exp iss : Json) (now : ℚ) (h : InWindow now nbf exp) (id : Str)
    (hid : identityOf (exLibs email nbf exp iss) (exClaims email nbf exp iss) iss = .ok id) :
    IdentityToken.init (exLibs email nbf exp iss) now "t".toList "sigstore".toList =
      .ok ⟨"t".toList, iss, nbf, exp, id, some "idp".toList⟩ := by
  have hw := (inValidityPeriod_true_iff now nbf exp).2 h
  have : (exLibs email nbf exp iss).decode now "t".toList "sigstore".toList = some (exClaims email nbf exp iss) := rfl
  unfold IdentityToken.init
  rw [this]
  dsimp only
  rw [show (exClaims email nbf exp iss).get? "iss".toList = some iss from rfl]
  dsimp only
  rw [show (exClaims email nbf exp iss).get? "exp".toList = some exp from rfl,
    show getOrNull (exClaims email nbf exp iss) "nbf".toList = nbf from rfl]
  dsimp only
  rw [hw]
  dsimp only
  rw [hid]
  rfl

/-- a token of a known issuer is constructed at its `nbf`, and its identity is the email -/
example : ∃ t, IdentityToken.init (exLibs (.str "a@b".toList) (.num 10) (.num 20) google) 10 "t".toList
    "sigstore".toList = .ok t ∧ t.identity = "a@b".toList ∧ t.inValidityPeriod 20 = .ok false := by
  refine ⟨_, exInit_eq _ _ _ _ _ ?_ "a@b".toList rfl, rfl, ?_⟩
  · exact ⟨⟨20, rfl, by norm_num⟩, .inr ⟨10, rfl, by norm_num⟩⟩
  · simp [IdentityToken.inValidityPeriod, Oidc.inValidityPeriod, pyLe, pyGt, Json.numeric]
    norm_num

/-- **C40** A null identity claim becomes the identity `None`. -/
theorem C40_null_identity : ∃ t, IdentityToken.init (exLibs .null (.num 10) (.num 20) google) 15 "t".toList
    "sigstore".toList = .ok t ∧ t.identity = "None".toList := by
  refine ⟨_, exInit_eq _ _ _ _ _ ?_ "None".toList rfl, rfl⟩
  exact ⟨⟨20, rfl, by norm_num⟩, .inr ⟨10, rfl, by norm_num⟩⟩

/-- **C66** refuted: a token whose issuer is a list, or whose `exp` or `nbf` is a string, raises `TypeError` although
`jwt.decode` behaves as documented. -/
theorem C66_leaks_type_error :
    (∃ libs, JwtContract libs ∧ IdentityToken.init libs 15 "t".toList "sigstore".toList = .error .typeError) ∧
    (∀ email nbf exp iss, (∃ l, iss = .arr l) → InWindow 15 nbf exp →
      IdentityToken.init (exLibs email nbf exp iss) 15 "t".toList "sigstore".toList = .error .typeError) ∧
    (∀ email exp iss s, IdentityToken.init (exLibs email (.str s) exp iss) 15 "t".toList "sigstore".toList =
      .error .typeError) ∧
    (∀ email iss s, IdentityToken.init (exLibs email .null (.str s) iss) 15 "t".toList "sigstore".toList =
      .error .typeError) := by
  have h3 : ∀ email iss s, IdentityToken.init (exLibs email .null (.str s) iss) 15 "t".toList "sigstore".toList =
      .error .typeError := fun _ _ _ => rfl
  refine ⟨⟨exLibs .null .null (.str []) google, exLibs_contract _ _ _ _ (by simp) (by simp [google]), h3 _ _ _⟩,
    ?_, fun _ _ _ _ => rfl, h3⟩
  rintro email nbf exp _ ⟨l, rfl⟩ h
  have hw := (inValidityPeriod_true_iff 15 nbf exp).2 h
  unfold IdentityToken.init
  rw [show (exLibs email nbf exp (.arr l)).decode 15 "t".toList "sigstore".toList =
    some (exClaims email nbf exp (.arr l)) from rfl]
  dsimp only
  rw [show (exClaims email nbf exp (.arr l)).get? "iss".toList = some (.arr l) from rfl]
  dsimp only
  rw [show (exClaims email nbf exp (.arr l)).get? "exp".toList = some exp from rfl,
    show getOrNull (exClaims email nbf exp (.arr l)) "nbf".toList = nbf from rfl]
  dsimp only
  rw [hw]
  rfl

/-- **C66** (partial: excludes claims of unexpected types) If the issuer is no list or dictionary and the times are numbers,
construction fails only with `IdentityError`. -/
theorem C66_identity_error_partial (libs : Libs) (hj : JwtContract libs) (now : ℚ) (raw clientId : Str)
    (ht : ∀ claims, libs.decode now raw clientId = some claims →
      (∀ iss, claims.get? "iss".toList = some iss → (∀ l, iss ≠ .arr l) ∧ ∀ f, iss ≠ .obj f) ∧
      (∀ exp, claims.get? "exp".toList = some exp → exp.numeric ≠ none) ∧
      (∀ nbf, claims.get? "nbf".toList = some nbf → nbf = .null ∨ nbf.numeric ≠ none))
    (e : Exc) (h : IdentityToken.init libs now raw clientId = .error e) : e = .identity := by
  unfold IdentityToken.init at h
  cases hd : libs.decode now raw clientId with
  | none => rw [hd] at h; cases h; rfl
  | some claims =>
    rw [hd] at h
    dsimp only at h
    obtain ⟨hreq, _⟩ := hj _ _ _ _ hd
    obtain ⟨h1, h2, h3⟩ := ht _ hd
    obtain ⟨iss, hiss, _⟩ := hreq "iss".toList (by simp)
    obtain ⟨exp, hexp, _⟩ := hreq "exp".toList (by simp)
    rw [hiss] at h
    dsimp only at h
    rw [hexp] at h
    dsimp only at h
    have hgt : ∃ b, pyGt now exp = .ok b := by
      unfold pyGt
      cases hn : exp.numeric with
      | none => exact absurd hn (h2 _ hexp)
      | some q => exact ⟨_, rfl⟩
    have hw : ∃ b, Oidc.inValidityPeriod now (getOrNull claims "nbf".toList) exp = .ok b := by
      obtain ⟨b, hb⟩ := hgt
      have hnb : getOrNull claims "nbf".toList = .null ∨ (getOrNull claims "nbf".toList).numeric ≠ none := by
        unfold getOrNull
        cases hn : claims.get? "nbf".toList with
        | none => exact .inl rfl
        | some v => exact h3 v hn
      generalize getOrNull claims "nbf".toList = nbf at hnb
      by_cases hnn : nbf = .null
      · subst hnn; exact ⟨b, hb⟩
      · have hq := hnb.resolve_left hnn
        obtain ⟨q, hq⟩ := Option.ne_none_iff_exists'.1 hq
        have : Oidc.inValidityPeriod now nbf exp = (match pyLe nbf now with
          | .error e => .error e
          | .ok false => .ok false
          | .ok true => pyGt now exp) := by
          cases nbf <;> first | rfl | exact absurd rfl hnn
        rw [this, show pyLe nbf now = .ok (decide (q ≤ now)) by unfold pyLe; rw [hq]]
        by_cases hc : q ≤ now
        · rw [decide_eq_true hc]; exact ⟨b, hb⟩
        · rw [decide_eq_false hc]; exact ⟨false, rfl⟩
    obtain ⟨b, hb⟩ := hw
    rw [hb] at h
    cases b with
    | false => cases h; rfl
    | true =>
      dsimp only at h
      cases hq : identityOf libs claims iss with
      | error e' =>
        rw [hq] at h
        cases h
        unfold identityOf at hq
        rcases lookupIssuer_cases iss with ⟨_, h'⟩ | ⟨ha, hf, o, ho, hc⟩
        · obtain ⟨ha, hf⟩ := h1 _ hiss
          rcases h' with ⟨l, rfl⟩ | ⟨f, rfl⟩
          · exact absurd rfl (ha l)
          · exact absurd rfl (hf f)
        · rw [ho] at hq
          cases o with
          | none => dsimp only at hq; split at hq <;> cases hq; rfl
          | some k => dsimp only at hq; split at hq <;> cases hq; rfl
      | ok identity =>
        rw [hq] at h
        dsimp only at h
        cases hf : federatedIssuerOf claims with
        | error e' =>
          rw [hf] at h
          cases h
          unfold federatedIssuerOf at hf
          split at hf
          · cases hf
          · split at hf <;> cases hf; rfl
          · cases hf; rfl
        | ok fed => rw [hf] at h; cases h

end Sigstore.Props
