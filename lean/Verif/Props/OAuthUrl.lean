import Verif.Props.Url
import Verif.Props.OAuth
import Mathlib.Tactic.IntervalCases
import Mathlib.Tactic.Ring
import Mathlib.Tactic.Linarith

/-!
# C98: the authorization request
-/

namespace Sigstore.Props

open Sigstore.Url Sigstore.Spec Sigstore.OAuth

/-! ## Forms -/

/-- one character of a form, whatever follows -/
theorem formBytes_plus (rest : Str) : formBytes ('+' :: rest) = 32 :: formBytes rest := by
  match rest with
  | [] => rfl
  | [d] => rfl
  | d :: e :: rest => rfl

theorem formBytes_plain (c : Char) (h : c ≠ '+' ∧ c ≠ '%') (rest : Str) :
    formBytes (c :: rest) = utf8 [c] ++ formBytes rest := by
  match rest with
  | [] => simp [formBytes, h.1]
  | [d] => simp only [formBytes, if_neg h.1]
  | d :: e :: rest =>
    simp only [formBytes]
    rw [if_neg h.1, if_neg h.2]

theorem formBytes_escape {d e : Char} {x y : Nat} (hx : hexDigitValue d = some x) (hy : hexDigitValue e = some y)
    (rest : Str) : formBytes ('%' :: d :: e :: rest) = UInt8.ofNat (16 * x + y) :: formBytes rest := by
  simp only [formBytes, hx, hy]
  rw [if_neg (by decide)]
  simp

/-- what `quote_plus` writes for a byte -/
theorem quotePlusByte_cases (b : UInt8) :
    (quotePlusByte b = ['+'] ∧ b = 32) ∨
    (∃ c : Char, quotePlusByte b = [c] ∧ c ≠ '+' ∧ c ≠ '%' ∧ c ≠ '&' ∧ c ≠ '=' ∧ c ≠ '#' ∧ c ≠ '?' ∧ c.toNat < 128 ∧ 32 < c.toNat ∧ utf8 [c] = [b]) ∨
    (∃ d e x y, quotePlusByte b = ['%', d, e] ∧ hexDigitValue d = some x ∧ hexDigitValue e = some y ∧ escapeDigit d = some x ∧
      escapeDigit e = some y ∧ UInt8.ofNat (16 * x + y) = b ∧
      (∀ c ∈ [d, e], c ≠ '+' ∧ c ≠ '&' ∧ c ≠ '=' ∧ c ≠ '#' ∧ c ≠ '?' ∧ c.toNat < 128 ∧ 32 < c.toNat)) := by
  have key : ∀ i : Fin 256,
      (quotePlusByte (UInt8.ofNat i) = ['+'] ∧ UInt8.ofNat i = 32) ∨
      (quotePlusByte (UInt8.ofNat i) = [Char.ofNat i] ∧ Char.ofNat i ≠ '+' ∧ Char.ofNat i ≠ '%' ∧ Char.ofNat i ≠ '&' ∧
        Char.ofNat i ≠ '=' ∧ Char.ofNat i ≠ '#' ∧ Char.ofNat i ≠ '?' ∧ (Char.ofNat i).toNat < 128 ∧ 32 < (Char.ofNat i).toNat ∧ utf8 [Char.ofNat i] = [UInt8.ofNat i]) ∨
      (quotePlusByte (UInt8.ofNat i) = ['%', Tuf.upperHexDigit (i / 16), Tuf.upperHexDigit (i % 16)] ∧
        hexDigitValue (Tuf.upperHexDigit (i / 16)) = some (i / 16 : Nat) ∧ hexDigitValue (Tuf.upperHexDigit (i % 16)) = some (i % 16 : Nat) ∧
        escapeDigit (Tuf.upperHexDigit (i / 16)) = some (i / 16 : Nat) ∧ escapeDigit (Tuf.upperHexDigit (i % 16)) = some (i % 16 : Nat) ∧
        UInt8.ofNat (16 * (i / 16 : Nat) + (i % 16 : Nat)) = UInt8.ofNat i ∧
        (∀ c ∈ [Tuf.upperHexDigit (i / 16), Tuf.upperHexDigit (i % 16)],
          c ≠ '+' ∧ c ≠ '&' ∧ c ≠ '=' ∧ c ≠ '#' ∧ c ≠ '?' ∧ c.toNat < 128 ∧ 32 < c.toNat)) := by decide +kernel
  have h := key ⟨b.toNat, b.toNat_lt⟩
  rw [UInt8.ofNat_toNat] at h
  rcases h with h | h | h
  · exact .inl h
  · exact .inr (.inl ⟨_, h⟩)
  · exact .inr (.inr ⟨_, _, _, _, h⟩)

theorem formBytes_quotePlusByte (b : UInt8) (rest : Str) : formBytes (quotePlusByte b ++ rest) = b :: formBytes rest := by
  rcases quotePlusByte_cases b with ⟨e, h⟩ | ⟨c, e, h⟩ | ⟨d, f, x, y, e, h⟩
  · rw [e, h]; exact formBytes_plus rest
  · rw [e]
    show formBytes (c :: rest) = _
    rw [formBytes_plain c ⟨h.1, h.2.1⟩, h.2.2.2.2.2.2.2.2]; rfl
  · rw [e]
    show formBytes ('%' :: d :: f :: rest) = _
    rw [formBytes_escape h.1 h.2.1, h.2.2.2.2.1]

theorem formBytes_quotePlus (s rest : Str) : formBytes (quotePlus s ++ rest) = utf8 s ++ formBytes rest := by
  unfold quotePlus
  induction utf8 s with
  | nil => rfl
  | cons b bs ih => rw [List.flatMap_cons, List.append_assoc, formBytes_quotePlusByte, ih, List.cons_append]

theorem formText_quotePlus (s : Str) : formText (quotePlus s) = some s := by
  have := formBytes_quotePlus s []
  rw [List.append_nil] at this
  unfold formText
  rw [this]
  simp [formBytes, utf8Decode_utf8]

/-- the characters of `quote_plus` -/
theorem quotePlus_chars (s : Str) : ∀ c ∈ quotePlus s, c ≠ '&' ∧ c ≠ '=' ∧ c ≠ '#' ∧ c ≠ '?' ∧ c.toNat < 128 ∧ 32 < c.toNat := by
  intro c hc
  unfold quotePlus at hc
  obtain ⟨b, -, hc⟩ := List.mem_flatMap.mp hc
  rcases quotePlusByte_cases b with ⟨e, h⟩ | ⟨d, e, h⟩ | ⟨d, f, x, y, e, h⟩
  · rw [e] at hc
    rw [List.mem_singleton] at hc
    subst hc
    decide
  · rw [e] at hc
    rw [List.mem_singleton] at hc
    subst hc
    exact ⟨h.2.2.1, h.2.2.2.1, h.2.2.2.2.1, h.2.2.2.2.2.1, h.2.2.2.2.2.2.1, h.2.2.2.2.2.2.2.1⟩
  · rw [e] at hc
    rcases List.mem_cons.mp hc with rfl | hc
    · decide
    · have := h.2.2.2.2.2 c hc
      exact this.2

theorem joinWith_eq (c : Char) : ∀ l : List Str, joinWith c l = (l.intersperse [c]).flatten
  | [] => rfl
  | [s] => by simp [joinWith]
  | s :: t :: rest => by
    rw [joinWith]
    · rw [joinWith_eq c (t :: rest)]; simp
    · simp

/-- the pieces of a form are determined by it -/
theorem splitOn_joinWith (c : Char) : ∀ l : List Str, l ≠ [] → (∀ p ∈ l, c ∉ p) → splitOn c (joinWith c l) = l
  | [], h, _ => absurd rfl h
  | [s], _, h => splitOn_of_not_mem c s (h s (by simp))
  | s :: t :: rest, _, h => by
    have : joinWith c (s :: t :: rest) = s ++ c :: joinWith c (t :: rest) := by
      rw [joinWith]; simp
    rw [this, splitOn_append c s _ (h s (by simp)),
      splitOn_joinWith c (t :: rest) (by simp) (fun p hp => h p (List.mem_cons_of_mem _ hp))]

theorem isField_unique {p : Str} {f g : Str × Str} (hf : IsField p f) (hg : IsField p g) : f = g := by
  obtain ⟨n, v, e, hn, h1, h2⟩ := hf
  obtain ⟨n', v', e', hn', h1', h2'⟩ := hg
  have a := partition_append '=' n v hn
  have b := partition_append '=' n' v' hn'
  rw [← e] at a
  rw [← e', a] at b
  injection b with b1 b2
  injection b2 with b2
  subst b1 b2
  rw [h1] at h1'
  rw [h2] at h2'
  injection h1' with h1'
  injection h2' with h2'
  exact Prod.ext h1' h2'

/-- **C98** A form stands for one list of fields. -/
theorem C98_form_unique (form : Str) (fields fields' : List (Str × Str)) (h : IsForm form fields)
    (h' : IsForm form fields') : fields = fields' := by
  obtain ⟨ps, e, hp, hf⟩ := h
  obtain ⟨ps', e', hp', hf'⟩ := h'
  rw [← joinWith_eq] at e e'
  have nonempty : ∀ (l : List Str) (fs : List (Str × Str)), List.Forall₂ IsField l fs → form = joinWith '&' l → (l = [] ↔ form = []) := by
    intro l fs hl e
    constructor
    · rintro rfl; exact e
    · intro h0
      cases l with
      | nil => rfl
      | cons p rest =>
        exfalso
        cases hl with
        | cons h _ =>
          obtain ⟨n, v, hp, -⟩ := h
          rw [h0] at e
          cases rest with
          | nil => simp [joinWith, hp] at e
          | cons q rest => simp [joinWith] at e
  have : ps = ps' := by
    by_cases h0 : form = []
    · rw [(nonempty ps _ hf e).mpr h0, (nonempty ps' _ hf' e').mpr h0]
    · rw [← splitOn_joinWith '&' ps (fun h => h0 ((nonempty ps _ hf e).mp h)) hp, ← e, e',
        splitOn_joinWith '&' ps' (fun h => h0 ((nonempty ps' _ hf' e').mp h)) hp']
  subst this
  clear e e' hp hp' nonempty
  induction hf generalizing fields' with
  | nil => cases hf'; rfl
  | cons a _ ih =>
    cases hf' with
    | cons b hr => rw [isField_unique a b, ih _ hr]

theorem isField_quotePlus (n v : Str) : IsField (quotePlus n ++ '=' :: quotePlus v) (n, v) :=
  ⟨_, _, rfl, fun h => (quotePlus_chars n _ h).2.1 rfl, formText_quotePlus n, formText_quotePlus v⟩

theorem piece_chars (n v : Str) : '&' ∉ quotePlus n ++ '=' :: quotePlus v := by
  intro h
  rcases List.mem_append.mp h with h | h
  · exact (quotePlus_chars n _ h).1 rfl
  · rcases List.mem_cons.mp h with h | h
    · revert h; decide
    · exact (quotePlus_chars v _ h).1 rfl

theorem mem_joinWith {c x : Char} {l : List Str} (h : x ∈ joinWith c l) : x = c ∨ ∃ p ∈ l, x ∈ p := by
  rw [joinWith_eq] at h
  obtain ⟨p, hp, hx⟩ := List.mem_flatten.mp h
  have : ∀ (l : List Str), p ∈ l.intersperse [c] → p = [c] ∨ p ∈ l := by
    intro l
    induction l with
    | nil => simp
    | cons a l ih =>
      cases l with
      | nil => intro h; right; simpa using h
      | cons b l =>
        rw [List.intersperse_cons_cons]
        intro h
        rcases List.mem_cons.mp h with h | h
        · right; simp [h]
        · rcases List.mem_cons.mp h with h | h
          · exact .inl h
          · rcases ih h with h | h
            · exact .inl h
            · exact .inr (List.mem_cons_of_mem _ h)
  rcases this l hp with h | h
  · subst h; left; simpa using hx
  · exact .inr ⟨p, h, hx⟩

theorem urlencode_chars (ps : List (Str × Str)) : ∀ c ∈ urlencode ps, c ≠ '#' ∧ c ≠ '?' ∧ c.toNat < 128 ∧ 32 < c.toNat := by
  intro c h
  rcases mem_joinWith h with rfl | ⟨p, hp, hc⟩
  · decide
  · obtain ⟨q, -, rfl⟩ := List.mem_map.mp hp
    rcases List.mem_append.mp hc with h | h
    · exact (quotePlus_chars _ _ h).2.2
    · rcases List.mem_cons.mp h with rfl | h
      · decide
      · exact (quotePlus_chars _ _ h).2.2

/-- **C98** `urlencode` writes a form with the given fields, in order, whatever their texts. -/
theorem C98_urlencode (ps : List (Str × Str)) : IsForm (urlencode ps) ps := by
  refine ⟨_, joinWith_eq _ _, ?_, ?_⟩
  · intro p hp
    obtain ⟨q, -, rfl⟩ := List.mem_map.mp hp
    exact piece_chars _ _
  · rw [List.forall₂_map_left_iff]
    induction ps with
    | nil => exact .nil
    | cons p ps ih => exact .cons (isField_quotePlus p.1 p.2) ih

/-- The query of a URL is determined. -/
theorem C98_query_unique (url q q' : Str) (h : QueryOf url q) (h' : QueryOf url q') : q = q' := by
  obtain ⟨b, r, e, h1, -, h2, h3⟩ := h
  obtain ⟨b', r', e', h1', -, h2', h3'⟩ := h'
  rw [List.append_assoc] at e e'
  have a := partition_append '?' b (q ++ r) h1
  have a' := partition_append '?' b' (q' ++ r') h1'
  rw [← List.cons_append, ← e] at a
  rw [← List.cons_append, ← e', a] at a'
  injection a' with _ a'
  injection a' with a'
  have cut : ∀ (q r : Str), '#' ∉ q → (r = [] ∨ ∃ f, r = '#' :: f) → (Url.partition '#' (q ++ r)).1 = q := by
    intro q r hq hr
    rcases hr with rfl | ⟨f, rfl⟩
    · rw [List.append_nil, partition_of_not_mem _ _ hq]
    · rw [partition_append _ _ _ hq]
  rw [← cut q r h2 h3, a', cut q' r' h2' h3']

/-- the fields of an authorization request with a proof key (OpenID Connect Core, section 3.1.2.1; RFC 7636, section 4.3);
the client also sends its secret -/
def authorizationFields (clientId clientSecret redirectUri challenge state : Str) : List (Str × Str) :=
  [("response_type".toList, "code".toList), ("client_id".toList, clientId), ("client_secret".toList, clientSecret),
   ("scope".toList, "openid email".toList), ("redirect_uri".toList, redirectUri), ("code_challenge".toList, challenge),
   ("code_challenge_method".toList, "S256".toList), ("state".toList, state)]

/-- **C98** The browser is sent to the endpoint with the request in the query, whatever the texts are – if the endpoint
has no query of its own. -/
theorem C98_authorization_url_partial (endpoint clientId clientSecret : Str) (p : AuthParams) (h1 : '?' ∉ endpoint) (h2 : '#' ∉ endpoint) :
    ∃ q, QueryOf (authUrl endpoint clientId clientSecret p) q ∧
      IsForm q (authorizationFields clientId clientSecret p.redirectUri p.codeChallenge p.state) := by
  refine ⟨_, ⟨endpoint, [], by rw [List.append_nil]; rfl, h1, h2, fun h => ?_, .inl rfl⟩, C98_urlencode _⟩
  exact (urlencode_chars _ _ h).1 rfl

/-- **C98** is false of endpoints with a query (RFC 6749, section 3.1 allows them): the value of the query's last
parameter continues with the start of the request, and the request has no response type. -/
theorem C98_endpoint_with_query (endpoint name value clientId clientSecret : Str) (p : AuthParams)
    (h1 : '?' ∉ endpoint) (h2 : '#' ∉ endpoint) :
    ∃ q, QueryOf (authUrl (endpoint ++ '?' :: urlencode [(name, value)]) clientId clientSecret p) q ∧
      ∀ fields, IsForm q fields ↔
        fields = (name, value ++ "?response_type=code".toList) ::
          (authorizationFields clientId clientSecret p.redirectUri p.codeChallenge p.state).tail := by
  refine ⟨urlencode [(name, value)] ++ '?' :: urlencode (authQuery clientId clientSecret p),
    ⟨endpoint, [], ?_, h1, h2, ?_, .inl rfl⟩, fun fields => ⟨fun h => ?_, ?_⟩⟩
  · unfold authUrl; simp
  · intro h
    rcases List.mem_append.mp h with h | h
    · exact (urlencode_chars _ _ h).1 rfl
    · rcases List.mem_cons.mp h with h | h
      · revert h; decide
      · exact (urlencode_chars _ _ h).1 rfl
  · refine C98_form_unique _ _ _ h ?_
    exact glued
  · rintro rfl
    exact glued
where
  glued : IsForm (urlencode [(name, value)] ++ '?' :: urlencode (authQuery clientId clientSecret p))
      ((name, value ++ "?response_type=code".toList) ::
          (authorizationFields clientId clientSecret p.redirectUri p.codeChallenge p.state).tail) := by
    have e : urlencode [(name, value)] ++ '?' :: urlencode (authQuery clientId clientSecret p) =
        joinWith '&' ((quotePlus name ++ '=' :: (quotePlus value ++ "?response_type=code".toList)) ::
          ((authQuery clientId clientSecret p).tail.map fun p => quotePlus p.1 ++ '=' :: quotePlus p.2)) := by
      have e1 : quotePlus "response_type".toList = "response_type".toList := by decide +kernel
      have e2 : quotePlus "code".toList = "code".toList := by decide +kernel
      simp only [urlencode, authQuery, joinWith, List.map_cons, List.map_nil, List.tail_cons, e1, e2, List.append_assoc, List.cons_append]
      rfl
    rw [e]
    refine ⟨_, joinWith_eq _ _, ?_, .cons ⟨_, _, rfl, fun h => (quotePlus_chars name _ h).2.1 rfl, formText_quotePlus name, ?_⟩ ?_⟩
    · intro q hq
      rcases List.mem_cons.mp hq with rfl | hq
      · intro h
        rcases List.mem_append.mp h with h | h
        · exact (quotePlus_chars _ _ h).1 rfl
        · rcases List.mem_cons.mp h with h | h
          · revert h; decide
          · rcases List.mem_append.mp h with h | h
            · exact (quotePlus_chars _ _ h).1 rfl
            · revert h; decide
      · obtain ⟨q, -, rfl⟩ := List.mem_map.mp hq
        exact piece_chars _ _
    · unfold formText
      rw [formBytes_quotePlus]
      have : formBytes "?response_type=code".toList = utf8 "?response_type=code".toList := by decide +kernel
      rw [this, ← utf8_append, utf8Decode_utf8]
    · rw [List.forall₂_map_left_iff]
      show List.Forall₂ _ (authQuery clientId clientSecret p).tail (authQuery clientId clientSecret p).tail
      generalize (authQuery clientId clientSecret p).tail = l
      induction l with
      | nil => exact .nil
      | cons p ps ih => exact .cons (isField_quotePlus p.1 p.2) ih

/-! ## Proof keys -/

theorem urlsafeB64_group (a b c : UInt8) (rest : Bytes) : ∃ w x y z : Nat, w < 64 ∧ x < 64 ∧ y < 64 ∧ z < 64 ∧
    urlsafeB64 (a :: b :: c :: rest) =
      base64urlChar w :: base64urlChar x :: base64urlChar y :: base64urlChar z :: urlsafeB64 rest ∧
    ((w * 64 + x) * 64 + y) * 64 + z = (a.toNat * 256 + b.toNat) * 256 + c.toNat := by
  have ha := a.toNat_lt
  have hb := b.toNat_lt
  have hc := c.toNat_lt
  refine ⟨a.toNat / 4, a.toNat % 4 * 16 + b.toNat / 16, b.toNat % 16 * 4 + c.toNat / 64, c.toNat % 64,
    by omega, by omega, by omega, by omega, ?_, by omega⟩
  unfold urlsafeB64
  rw [b64Encode]
  simp only [List.map_cons]
  rw [urlsafeChar _ (by omega), urlsafeChar _ (by omega), urlsafeChar _ (by omega), urlsafeChar _ (by omega)]
  simp only [List.filter_cons]
  rw [if_pos (base64urlChar_ne_pad _ (by omega)), if_pos (base64urlChar_ne_pad _ (by omega)),
    if_pos (base64urlChar_ne_pad _ (by omega)), if_pos (base64urlChar_ne_pad _ (by omega))]
where
  urlsafeChar : ∀ n, n < 64 →
      (if b64Char n = '+' then '-' else if b64Char n = '/' then '_' else b64Char n) = base64urlChar n := by decide
  base64urlChar_ne_pad : ∀ n, n < 64 → decide (base64urlChar n ≠ '=') = true := by decide

theorem urlsafeB64_one (a : UInt8) : urlsafeB64 [a] = [base64urlChar (a.toNat / 4), base64urlChar (a.toNat % 4 * 16)] := by
  have key : ∀ i : Fin 256, urlsafeB64 [UInt8.ofNat i] = [base64urlChar (i / 4 : Nat), base64urlChar (i % 4 * 16 : Nat)] := by
    decide +kernel
  have h := key ⟨a.toNat, a.toNat_lt⟩
  rwa [UInt8.ofNat_toNat] at h

theorem urlsafeB64_two (a b : UInt8) :
    urlsafeB64 [a, b] = [base64urlChar (a.toNat / 4), base64urlChar (a.toNat % 4 * 16 + b.toNat / 16), base64urlChar (b.toNat % 16 * 4)] := by
  have ha := a.toNat_lt
  have hb := b.toNat_lt
  unfold urlsafeB64
  rw [b64Encode]
  simp only [List.map_cons, List.map_nil]
  rw [urlsafeB64_group.urlsafeChar _ (by omega), urlsafeB64_group.urlsafeChar _ (by omega), urlsafeB64_group.urlsafeChar _ (by omega)]
  simp only [List.filter_cons, List.filter_nil]
  rw [if_pos (urlsafeB64_group.base64urlChar_ne_pad _ (by omega)), if_pos (urlsafeB64_group.base64urlChar_ne_pad _ (by omega)),
    if_pos (urlsafeB64_group.base64urlChar_ne_pad _ (by omega))]
  rfl

theorem bigEndian_foldl (l : Bytes) : ∀ n, l.foldl (fun n (x : UInt8) => 256 * n + x.toNat) n = n * 256 ^ l.length + bigEndianValue l := by
  unfold bigEndianValue
  induction l with
  | nil => simp
  | cons x l ih =>
    intro n
    rw [List.foldl_cons, List.foldl_cons, ih, ih (256 * 0 + x.toNat), List.length_cons, Nat.pow_succ]
    ring

theorem bigEndian_lt (l : Bytes) : bigEndianValue l < 256 ^ l.length := by
  induction l with
  | nil => decide
  | cons x l ih =>
    have hx := x.toNat_lt
    have := bigEndian_foldl l (256 * 0 + x.toNat)
    unfold bigEndianValue at ih ⊢
    unfold bigEndianValue at this
    rw [List.foldl_cons, this, List.length_cons, Nat.pow_succ]
    nlinarith

/-- the digits of a number followed by others -/
theorem digits_high (a m n j : Nat) (hm : m < 64 ^ n) : (a * 64 ^ n + m) / 64 ^ (n + j) % 64 = a / 64 ^ j % 64 := by
  rw [Nat.pow_add, ← Nat.div_div_eq_div_mul, Nat.mul_comm a, Nat.mul_add_div (Nat.pos_of_ne_zero (by simp)),
    Nat.div_eq_of_lt hm, Nat.add_zero]

theorem digits_low (a m n j : Nat) (hj : j < n) : (a * 64 ^ n + m) / 64 ^ j % 64 = m / 64 ^ j % 64 := by
  obtain ⟨d, rfl⟩ := Nat.exists_eq_add_of_lt hj
  have : a * 64 ^ (j + d + 1) + m = 64 ^ j * (64 * (a * 64 ^ d)) + m := by ring
  rw [this, Nat.mul_add_div (Nat.pos_of_ne_zero (by simp)), Nat.mul_add_mod]

theorem isBase64Url_urlsafeB64 (b : Bytes) : IsBase64Url b (urlsafeB64 b) := by
  match b with
  | [] => exact ⟨rfl, fun i h => absurd h (by simp [urlsafeB64, b64Encode])⟩
  | [a] =>
    have ha := a.toNat_lt
    rw [urlsafeB64_one]
    refine ⟨by simp, fun i h => ?_⟩
    simp only [List.length_cons, List.length_nil] at h
    interval_cases i
    · show base64urlChar (a.toNat / 4) = base64urlChar ((256 * 0 + a.toNat) * 2 ^ 4 / 64 ^ 1 % 64)
      congr 1; omega
    · show base64urlChar (a.toNat % 4 * 16) = base64urlChar ((256 * 0 + a.toNat) * 2 ^ 4 / 64 ^ 0 % 64)
      congr 1; omega
  | [a, c] =>
    have ha := a.toNat_lt
    have hc := c.toNat_lt
    rw [urlsafeB64_two]
    refine ⟨by simp, fun i h => ?_⟩
    simp only [List.length_cons, List.length_nil] at h
    interval_cases i
    · show base64urlChar (a.toNat / 4) = base64urlChar ((256 * (256 * 0 + a.toNat) + c.toNat) * 2 ^ 2 / 64 ^ 2 % 64)
      congr 1; omega
    · show base64urlChar (a.toNat % 4 * 16 + c.toNat / 16) =
        base64urlChar ((256 * (256 * 0 + a.toNat) + c.toNat) * 2 ^ 2 / 64 ^ 1 % 64)
      congr 1; omega
    · show base64urlChar (c.toNat % 16 * 4) = base64urlChar ((256 * (256 * 0 + a.toNat) + c.toNat) * 2 ^ 2 / 64 ^ 0 % 64)
      congr 1; omega
  | a :: c :: d :: rest =>
    obtain ⟨hl, ih⟩ := isBase64Url_urlsafeB64 rest
    obtain ⟨w, x, y, z, hw, hx, hy, hz, e, hv⟩ := urlsafeB64_group a c d rest
    rw [e]
    generalize urlsafeB64 rest = t at hl ih ⊢
    have hle : 8 * rest.length ≤ 6 * t.length := by omega
    refine ⟨by simp only [List.length_cons]; omega, fun i h => ?_⟩
    have hval : bigEndianValue (a :: c :: d :: rest) * 2 ^ (6 * (t.length + 4) - 8 * (rest.length + 3)) =
        (((w * 64 + x) * 64 + y) * 64 + z) * 64 ^ t.length + bigEndianValue rest * 2 ^ (6 * t.length - 8 * rest.length) := by
      have h1 : bigEndianValue (a :: c :: d :: rest) =
          (((w * 64 + x) * 64 + y) * 64 + z) * 256 ^ rest.length + bigEndianValue rest := by
        rw [hv]
        have := bigEndian_foldl rest (256 * (256 * (256 * 0 + a.toNat) + c.toNat) + d.toNat)
        have h2 : (a.toNat * 256 + c.toNat) * 256 + d.toNat = 256 * (256 * (256 * 0 + a.toNat) + c.toNat) + d.toNat := by omega
        rw [h2, ← this]
        rfl
      have h2 : 64 ^ t.length = 256 ^ rest.length * 2 ^ (6 * t.length - 8 * rest.length) := by
        rw [show 64 = 2 ^ 6 from rfl, show 256 = 2 ^ 8 from rfl, ← Nat.pow_mul, ← Nat.pow_mul, ← Nat.pow_add]
        congr 1; omega
      rw [show 6 * (t.length + 4) - 8 * (rest.length + 3) = 6 * t.length - 8 * rest.length by omega, h1, h2]
      ring
    have hlt : bigEndianValue rest * 2 ^ (6 * t.length - 8 * rest.length) < 64 ^ t.length := by
      have h2 : 64 ^ t.length = 256 ^ rest.length * 2 ^ (6 * t.length - 8 * rest.length) := by
        rw [show 64 = 2 ^ 6 from rfl, show 256 = 2 ^ 8 from rfl, ← Nat.pow_mul, ← Nat.pow_mul, ← Nat.pow_add]
        congr 1; omega
      rw [h2]
      exact Nat.mul_lt_mul_of_pos_right (bigEndian_lt rest) (Nat.pos_of_ne_zero (by simp))
    simp only [List.length_cons] at h ⊢
    rw [hval]
    match i, h with
    | 0, _ =>
      rw [show t.length + 1 + 1 + 1 + 1 - 1 - 0 = t.length + 3 by omega, digits_high _ _ _ _ hlt]
      show base64urlChar w = _
      congr 1; omega
    | 1, _ =>
      rw [show t.length + 1 + 1 + 1 + 1 - 1 - 1 = t.length + 2 by omega, digits_high _ _ _ _ hlt]
      show base64urlChar x = _
      congr 1; omega
    | 2, _ =>
      rw [show t.length + 1 + 1 + 1 + 1 - 1 - 2 = t.length + 1 by omega, digits_high _ _ _ _ hlt]
      show base64urlChar y = _
      congr 1; omega
    | 3, _ =>
      rw [show t.length + 1 + 1 + 1 + 1 - 1 - 3 = t.length + 0 by omega, digits_high _ _ _ _ hlt]
      show base64urlChar z = _
      congr 1; omega
    | i + 4, h =>
      rw [show t.length + 1 + 1 + 1 + 1 - 1 - (i + 4) = t.length - 1 - i by omega,
        digits_low _ _ _ _ (by omega)]
      exact ih i (by omega)

theorem isBase64Url_unreserved {b : Bytes} {t : Str} (h : IsBase64Url b t) :
    ∀ c ∈ t, ('A' ≤ c ∧ c ≤ 'Z') ∨ ('a' ≤ c ∧ c ≤ 'z') ∨ ('0' ≤ c ∧ c ≤ '9') ∨ c = '-' ∨ c = '.' ∨ c = '_' ∨ c = '~' := by
  have key : ∀ n : Fin 64, ∀ c, c = base64urlChar n →
      ('A' ≤ c ∧ c ≤ 'Z') ∨ ('a' ≤ c ∧ c ≤ 'z') ∨ ('0' ≤ c ∧ c ≤ '9') ∨ c = '-' ∨ c = '.' ∨ c = '_' ∨ c = '~' := by
    intro n c e
    subst e
    revert n
    decide
  intro c hc
  obtain ⟨i, hi, rfl⟩ := List.mem_iff_getElem.mp hc
  exact key ⟨_, Nat.mod_lt _ (by decide)⟩ _ (h.2 i hi)

theorem base64urlChar_injective : ∀ m n : Fin 64, base64urlChar m = base64urlChar n → m = n := by decide +kernel

theorem eq_of_digits (n : Nat) : ∀ a b : Nat, a < 64 ^ n → b < 64 ^ n → (∀ j, j < n → a / 64 ^ j % 64 = b / 64 ^ j % 64) → a = b := by
  induction n with
  | zero => intro a b ha hb _; simp at ha hb; omega
  | succ n ih =>
    intro a b ha hb h
    have h0 := h 0 (by omega)
    simp only [Nat.pow_zero, Nat.div_one] at h0
    have := ih (a / 64) (b / 64) (by rw [Nat.pow_succ] at ha; omega) (by rw [Nat.pow_succ] at hb; omega) (fun j hj => by
      have := h (j + 1) (by omega)
      rwa [Nat.pow_succ, Nat.mul_comm, ← Nat.div_div_eq_div_mul, ← Nat.div_div_eq_div_mul] at this)
    omega

theorem bigEndian_injective : ∀ b b' : Bytes, b.length = b'.length → bigEndianValue b = bigEndianValue b' → b = b'
  | [], [], _, _ => rfl
  | x :: b, y :: b', hl, e => by
    have hl : b.length = b'.length := by simpa using hl
    have e : b.foldl (fun n (x : UInt8) => 256 * n + x.toNat) (256 * 0 + x.toNat) =
        b'.foldl (fun n (x : UInt8) => 256 * n + x.toNat) (256 * 0 + y.toNat) := e
    rw [bigEndian_foldl, bigEndian_foldl, ← hl] at e
    have h1 := bigEndian_lt b
    have h2 := bigEndian_lt b'
    rw [← hl] at h2
    have hd := congrArg (· / 256 ^ b.length) e
    have hm := congrArg (· % 256 ^ b.length) e
    simp only [Nat.mul_comm _ (256 ^ b.length)] at hd hm
    rw [Nat.mul_add_div (Nat.pos_of_ne_zero (by simp)), Nat.mul_add_div (Nat.pos_of_ne_zero (by simp)), Nat.div_eq_of_lt h1,
      Nat.div_eq_of_lt h2] at hd
    rw [Nat.mul_add_mod, Nat.mul_add_mod, Nat.mod_eq_of_lt h1, Nat.mod_eq_of_lt h2] at hm
    rw [bigEndian_injective b b' hl hm, UInt8.toNat_inj.mp (by omega : x.toNat = y.toNat)]

/-- base64url texts of byte strings of one length differ if the byte strings do -/
theorem base64Url_injective {b b' : Bytes} {t : Str} (h : IsBase64Url b t) (h' : IsBase64Url b' t) (hl : b.length = b'.length) : b = b' := by
  have hle : 8 * b.length ≤ 6 * t.length := by have := h.1; omega
  have key : bigEndianValue b * 2 ^ (6 * t.length - 8 * b.length) = bigEndianValue b' * 2 ^ (6 * t.length - 8 * b.length) := by
    have lt : ∀ x : Bytes, x.length = b.length → bigEndianValue x * 2 ^ (6 * t.length - 8 * b.length) < 64 ^ t.length := by
      intro x hx
      have h2 : 64 ^ t.length = 256 ^ b.length * 2 ^ (6 * t.length - 8 * b.length) := by
        rw [show 64 = 2 ^ 6 from rfl, show 256 = 2 ^ 8 from rfl, ← Nat.pow_mul, ← Nat.pow_mul, ← Nat.pow_add]
        congr 1; omega
      rw [h2, ← hx]
      exact Nat.mul_lt_mul_of_pos_right (bigEndian_lt x) (Nat.pos_of_ne_zero (by simp))
    refine eq_of_digits t.length _ _ (lt b rfl) (lt b' hl.symm) fun j hj => ?_
    have e := (h.2 (t.length - 1 - j) (by omega)).symm.trans (h'.2 (t.length - 1 - j) (by omega))
    rw [← hl, show t.length - 1 - (t.length - 1 - j) = j by omega] at e
    have := base64urlChar_injective ⟨_, Nat.mod_lt _ (by decide)⟩ ⟨_, Nat.mod_lt _ (by decide)⟩ e
    exact congrArg Fin.val this
  exact bigEndian_injective b b' hl (Nat.eq_of_mul_eq_mul_right (Nat.pos_of_ne_zero (by simp)) key)

/-- **C98** The code verifier is one of RFC 7636, from all 32 random bytes: different bytes give different verifiers. -/
theorem C98_code_verifier (random : Bytes) (h : random.length = 32) :
    IsCodeVerifier (codeVerifier random) ∧ IsBase64Url random (codeVerifier random) ∧
      ∀ other : Bytes, other.length = 32 → codeVerifier other = codeVerifier random → other = random := by
  have hb := isBase64Url_urlsafeB64 random
  refine ⟨⟨?_, ?_, isBase64Url_unreserved hb⟩, hb, fun other ho e => ?_⟩
  · have := hb.1; unfold codeVerifier; omega
  · have := hb.1; unfold codeVerifier; omega
  · exact base64Url_injective (isBase64Url_urlsafeB64 other) (by rw [show urlsafeB64 other = urlsafeB64 random from e]; exact hb)
      (by omega)

/-- **C98** The challenge in the authorization request is S256 of RFC 7636, section 4.2, of the verifier that the token
request sends. -/
theorem C98_code_challenge (libs : OAuth.Libs) (s : Session) (uri : Str) :
    IsBase64Url (libs.sha256 (utf8 s.codeVerifier)) (s.authParams libs uri).codeChallenge :=
  isBase64Url_urlsafeB64 _

/-! ## The redirect -/

theorem escapeDigit_eq (c : Char) : escapeDigit c = hexDigitValue c := by
  unfold escapeDigit hexVal hexDigitValue
  simp only [Char.le_def, UInt32.le_iff_toNat_le]
  rfl

theorem utf8_ascii_char {c : Char} (h : c.toNat < 128) : utf8 [c] = [UInt8.ofNat c.toNat] := by
  simp [utf8, utf8Char, h]

/-- `+` as `unquote_plus` sees it -/
def plusToSpace (s : Str) : Str := s.map fun c => if c = '+' then ' ' else c

theorem hexDigitValue_plus (c : Char) : hexDigitValue (if c = '+' then ' ' else c) = hexDigitValue c := by
  split
  · next h => subst h; decide
  · rfl

theorem unquoteToBytes_eq : ∀ s : Str, (∀ c ∈ s, c.toNat < 128) → unquoteToBytes (plusToSpace s) = formBytes s
  | [], _ => rfl
  | [c], h => by
    have hc := h c (by simp)
    by_cases hp : c = '+'
    · subst hp; decide
    · simp [plusToSpace, hp, unquoteToBytes, formBytes, utf8_ascii_char hc]
  | [c, d], h => by
    have hc := h c (by simp)
    have ih := unquoteToBytes_eq [d] (fun x hx => h x (List.mem_cons_of_mem _ hx))
    by_cases hp : c = '+'
    · subst hp
      rw [formBytes_plus, ← ih]
      simp [plusToSpace, unquoteToBytes]
    · rw [formBytes, if_neg hp, ← ih, utf8_ascii_char hc]
      simp [plusToSpace, hp, unquoteToBytes]
  | c :: d :: e :: rest, h => by
    have hc := h c (by simp)
    have ih := unquoteToBytes_eq (d :: e :: rest) (fun x hx => h x (List.mem_cons_of_mem _ hx))
    have ih' := unquoteToBytes_eq rest (fun x hx => h x (by simp [hx]))
    have eq : ∀ x : Char, plusToSpace (x :: d :: e :: rest) = (if x = '+' then ' ' else x) :: (if d = '+' then ' ' else d) ::
        (if e = '+' then ' ' else e) :: plusToSpace rest := fun _ => rfl
    have eq2 : plusToSpace (d :: e :: rest) = (if d = '+' then ' ' else d) :: (if e = '+' then ' ' else e) :: plusToSpace rest := rfl
    rw [eq2] at ih
    by_cases hp : c = '+'
    · subst hp
      rw [formBytes_plus, eq, unquoteToBytes, if_neg (by decide), ih]
      rfl
    · by_cases hq : c = '%'
      · subst hq
        rw [eq, if_neg hp, unquoteToBytes, if_pos rfl]
        simp only [escapeDigit_eq, hexDigitValue_plus]
        rw [formBytes, if_neg hp, if_pos rfl]
        cases hexDigitValue d <;> cases hexDigitValue e <;> simp [ih, ih', utf8_ascii_char hc]
      · rw [formBytes_plain c ⟨hp, hq⟩, eq, if_neg hp, unquoteToBytes, if_neg hq, ih, utf8_ascii_char hc]
        rfl

theorem unquote_ascii (decode : Bytes → Str) : ∀ (s run : Str), (∀ c ∈ s, c.toNat < 128) →
    unquote decode run s = decode (unquoteToBytes (run.reverse ++ s))
  | [], run, _ => by simp [unquote]
  | c :: cs, run, h => by
    rw [unquote, if_pos (h c (by simp)), unquote_ascii decode cs (c :: run) (fun x hx => h x (List.mem_cons_of_mem _ hx))]
    simp

/-- what is required of `bytes.decode("utf-8", "replace")`: texts are decoded -/
def DecodesTexts (decode : Bytes → Str) : Prop := ∀ s : Str, decode (utf8 s) = s

theorem unquotePlus_eq {decode : Bytes → Str} (hd : DecodesTexts decode) {s t : Str} (h : ∀ c ∈ s, c.toNat < 128)
    (e : formText s = some t) : unquotePlus decode s = t := by
  have hm : ∀ c ∈ plusToSpace s, c.toNat < 128 := by
    intro c hc
    obtain ⟨x, hx, rfl⟩ := List.mem_map.mp hc
    split
    · decide
    · exact h x hx
  unfold formText at e
  rw [utf8Decode_eq_some_iff] at e
  show unquote decode [] (plusToSpace s) = t
  rw [unquote_ascii _ _ _ hm, List.reverse_nil, List.nil_append, unquoteToBytes_eq s h, e, hd]

theorem formBytes_cons_ne_nil (c : Char) (s : Str) : formBytes (c :: s) ≠ [] := by
  by_cases hp : c = '+'
  · subst hp; rw [formBytes_plus]; simp
  · by_cases hq : c = '%'
    · subst hq
      match s with
      | [] => simp [formBytes, utf8, utf8Char]
      | [d] => simp [formBytes, utf8, utf8Char]
      | d :: e :: rest =>
        rw [formBytes, if_neg hp, if_pos rfl]
        split <;> simp [utf8, utf8Char]
    · rw [formBytes_plain c ⟨hp, hq⟩]
      simp [utf8, utf8Char_ne_nil]

/-- the fields with a value -/
def nonempty (fields : List (Str × Str)) : List (Str × Str) := fields.filter fun f => f.2 ≠ []

theorem parseQsl_form {decode : Bytes → Str} (hd : DecodesTexts decode) {q : Str} {fields : List (Str × Str)} (h : IsForm q fields)
    (ha : ∀ c ∈ q, c.toNat < 128) : parseQsl decode q = nonempty fields := by
  obtain ⟨ps, e, hp, hf⟩ := h
  rw [← joinWith_eq] at e
  cases ps with
  | nil =>
    cases hf
    rw [e]
    rfl
  | cons p ps =>
    have hs := splitOn_joinWith '&' (p :: ps) (by simp) hp
    have hsub : ∀ p' ∈ p :: ps, ∀ c ∈ p', c.toNat < 128 := by
      intro p' hp' c hc
      refine ha c ?_
      rw [e, joinWith_eq]
      refine List.mem_flatten.mpr ⟨p', ?_, hc⟩
      clear e hf hs hp
      generalize p :: ps = l at hp'
      induction l with
      | nil => simp at hp'
      | cons a l ih =>
        cases l with
        | nil => simpa using hp'
        | cons b l =>
          rw [List.intersperse_cons_cons]
          rcases List.mem_cons.mp hp' with rfl | hp'
          · simp
          · exact List.mem_cons_of_mem _ (List.mem_cons_of_mem _ (ih hp'))
    unfold parseQsl
    rw [e, hs]
    clear e hs hp
    generalize p :: ps = l at hf hsub
    induction hf with
    | nil => rfl
    | @cons p f l fs hpf _ ih =>
      have ih := ih (fun p' hp' => hsub p' (List.mem_cons_of_mem _ hp'))
      have hasc := hsub p (by simp)
      obtain ⟨n, v, rfl, hn, h1, h2⟩ := hpf
      rw [List.filterMap_cons, partition_append '=' n v hn, nonempty, List.filter_cons]
      cases v with
      | nil =>
        have : f.2 = [] := by
          have : formText [] = some [] := rfl
          rw [this] at h2
          injection h2 with h2
          exact h2.symm
        simp only [this, ne_eq, not_true_eq_false, decide_false]
        exact ih
      | cons c cs =>
        have : f.2 ≠ [] := by
          intro h0
          unfold formText at h2
          rw [h0, utf8Decode_eq_some_iff] at h2
          exact formBytes_cons_ne_nil c cs h2
        simp only [ne_eq, this, not_false_eq_true, decide_true, if_true]
        rw [unquotePlus_eq hd (fun x hx => hasc x (by simp [hx])) h1, unquotePlus_eq hd (fun x hx => hasc x (List.mem_append_right _ (List.mem_cons_of_mem _ hx))) h2]
        congr 1

/-- the values of a parameter -/
def valuesOf (k : Str) (l : List (Str × Str)) : List Str := (l.filter fun f => f.1 = k).map Prod.snd

theorem parseQs_fold (k : Str) : ∀ (l : List (Str × Str)) (d : OAuth.Query), d.get? k ≠ some [] →
    (l.foldl (fun d p => Dict.set d p.1 ((Dict.get? d p.1).getD [] ++ [p.2])) d).get? k =
      if (d.get? k).getD [] ++ valuesOf k l = [] then none else some ((d.get? k).getD [] ++ valuesOf k l)
  | [], d, hd => by
    cases h : d.get? k with
    | none => simp [valuesOf, h]
    | some v =>
      cases v with
      | nil => exact absurd h hd
      | cons a b => simp [valuesOf, h]
  | p :: l, d, hd => by
    rw [List.foldl_cons]
    by_cases hk : p.1 = k
    · subst hk
      rw [parseQs_fold p.1 l _ (by rw [Dict.get?_set_self]; simp), Dict.get?_set_self]
      simp [valuesOf]
    · rw [parseQs_fold k l _ (by rwa [Dict.get?_set_ne _ _ hk]), Dict.get?_set_ne _ _ hk]
      have : valuesOf k (p :: l) = valuesOf k l := by simp [valuesOf, hk]
      rw [this]

theorem parseQs_get? {decode : Bytes → Str} (hd : DecodesTexts decode) {q : Str} {fields : List (Str × Str)} (h : IsForm q fields)
    (ha : ∀ c ∈ q, c.toNat < 128) (k : Str) :
    (parseQs decode q).get? k = if valuesOf k (nonempty fields) = [] then none else some (valuesOf k (nonempty fields)) := by
  unfold parseQs
  rw [parseQsl_form hd h ha, parseQs_fold k _ [] (by simp [Dict.get?])]
  have : (Dict.get? ([] : OAuth.Query) k).getD [] = [] := rfl
  rw [this, List.nil_append]

theorem split_callback (urls : UrlLibs) (decode : Bytes → Str) (sha256 : Bytes → Bytes) {q : Str}
    (hq : ∀ c ∈ q, 32 < c.toNat ∧ c ≠ '#') :
    (oauthLibs urls decode sha256).split ("/auth/callback?".toList ++ q) = ("/auth/callback".toList, q) := by
  have hclean : clean ("/auth/callback?".toList ++ q) = "/auth/callback?".toList ++ q := by
    unfold clean
    have : ("/auth/callback?".toList ++ q).dropWhile (fun c => decide (c.toNat ≤ 32)) = "/auth/callback?".toList ++ q := by
      show List.dropWhile _ ('/' :: ("auth/callback?".toList ++ q)) = _
      rw [List.dropWhile_cons_of_neg (by decide)]
      rfl
    rw [this]
    refine noBreaks_id _ fun c hc => ?_
    rcases List.mem_append.mp hc with h | h
    · clear hc; revert c; decide
    · have := (hq c h).1
      refine ⟨?_, ?_, ?_⟩ <;> rintro rfl <;> revert this <;> decide
  have hscheme : splitScheme [] ("/auth/callback?".toList ++ q) = ([], "/auth/callback?".toList ++ q) := by
    unfold splitScheme
    have : ∀ r, Url.partition ':' ('/' :: r) = ('/' :: (Url.partition ':' r).1, (Url.partition ':' r).2) := by
      intro r; rw [Url.partition, if_neg (by decide)]
    show (match Url.partition ':' ('/' :: ("auth/callback?".toList ++ q)) with
      | (c :: cs, some rest) => if isAlpha c && (c :: cs).all isSchemeChar then ((c :: cs).map lower, rest) else ([], _)
      | _ => ([], _)) = _
    rw [this]
    cases (Url.partition ':' ("auth/callback?".toList ++ q)).2 <;> rfl
  have hhash : '#' ∉ "/auth/callback?".toList ++ q := by
    intro h
    rcases List.mem_append.mp h with h | h
    · revert h; decide
    · exact (hq _ h).2 rfl
  have hnet : splitNetloc ("/auth/callback?".toList ++ q) = ([], "/auth/callback?".toList ++ q) := rfl
  have hpart := partition_append '?' "/auth/callback".toList q (by decide)
  have hpart : Url.partition '?' ("/auth/callback?".toList ++ q) = ("/auth/callback".toList, some q) := hpart
  show (match urlsplit urls ("/auth/callback?".toList ++ q) [] with
    | .error _ => ([], [])
    | .ok s => (s.path, s.query)) = _
  unfold urlsplit
  rw [hclean, hscheme]
  simp only [hnet, partition_of_not_mem _ _ hhash, hpart]
  rfl

/-- the first value of a parameter that is not empty -/
def firstValue (k : Str) (fields : List (Str × Str)) : Option Str :=
  (fields.find? fun f => f.1 = k ∧ f.2 ≠ []).map Prod.snd

theorem valuesOf_head (k : Str) : ∀ fields : List (Str × Str), (valuesOf k (nonempty fields)).head? = firstValue k fields
  | [] => rfl
  | f :: fields => by
    have ih := valuesOf_head k fields
    unfold valuesOf nonempty firstValue at ih ⊢
    rw [List.filter_cons, List.find?_cons]
    by_cases h2 : f.2 = []
    · simp only [h2, ne_eq, not_true_eq_false, decide_false, and_false]
      exact ih
    · by_cases h1 : f.1 = k
      · simp [h1, h2]
      · simp only [h1, h2, ne_eq, not_false_eq_true, decide_true, if_true, and_true, decide_false]
        rw [List.filter_cons]
        simp only [h1, decide_false]
        exact ih

/-- **C98** When the browser comes back to the callback, whatever form the identity provider wrote, the code in it is
exchanged exactly if there is no error and the state is that of this session. -/
theorem C98_redirect_iff (urls : UrlLibs) (decode : Bytes → Str) (hd : DecodesTexts decode) (sha256 : Bytes → Bytes) (s : Session)
    (q : Str) (hq : ∀ c ∈ q, 32 < c.toNat ∧ c.toNat < 128 ∧ c ≠ '#') (fields : List (Str × Str)) (hf : IsForm q fields)
    (m : Machine) (hm : m.server = .idle ∧ m.main = .waiting ∧ m.response = none ∧ m.oob = false) (rest : List Str)
    (hr : m.requests = ("/auth/callback?".toList ++ q) :: rest) (input : Str) (t : TokenRequest) :
    tokenRequest s input (serverStep (oauthLibs urls decode sha256) s m) = some (.ok t) ↔
      firstValue "error".toList fields = none ∧ firstValue "state".toList fields = some s.state ∧
        firstValue "code".toList fields = some t.code ∧ t.redirectUri = s.baseUri ++ "/auth/callback".toList ∧
        t.codeVerifier = s.codeVerifier := by
  obtain ⟨h1, h2, h3, h4⟩ := hm
  have hsplit := split_callback urls decode sha256 (fun c hc => ⟨(hq c hc).1, (hq c hc).2.2⟩)
  have hstep : serverStep (oauthLibs urls decode sha256) s m =
      { m with requests := rest, response := some (parseQs decode q) } := by
    unfold serverStep
    rw [h1]
    simp only [hr]
    have hp : ((oauthLibs urls decode sha256).split ("/auth/callback?".toList ++ q)).1 = "/auth/callback".toList := by rw [hsplit]
    rw [if_neg (by rw [h3]; simp), if_pos hp, hsplit]
    rfl
  have hget := fun k => parseQs_get? hd hf (fun c hc => (hq c hc).2.1) k
  have hnone : ∀ k, (parseQs decode q).get? k = none ↔ firstValue k fields = none := by
    intro k
    rw [hget, ← valuesOf_head]
    cases valuesOf k (nonempty fields) <;> simp
  have hsome : ∀ k v, (∃ l, (parseQs decode q).get? k = some (v :: l)) ↔ firstValue k fields = some v := by
    intro k v
    rw [hget, ← valuesOf_head]
    cases valuesOf k (nonempty fields) <;> simp
  rw [hstep]
  unfold tokenRequest
  simp only [h2, h4]
  have hc := fun code => C41_code_iff s.state (parseQs decode q) code
  cases hres : checkResponse s.state (parseQs decode q) with
  | error e =>
    simp only [Option.some.injEq, reduceCtorEq, false_iff, not_and]
    intro a b c
    exfalso
    have := (hc t.code).mpr ⟨(hnone _).mpr a, (hsome _ _).mpr b, (hsome _ _).mpr c⟩
    rw [hres] at this
    cases this
  | ok code =>
    have := (hc code).mp hres
    rw [hnone, hsome, hsome] at this
    obtain ⟨a, b, c⟩ := this
    simp only [Option.some.injEq, Except.ok.injEq]
    constructor
    · rintro rfl
      exact ⟨a, b, c, rfl, rfl⟩
    · rintro ⟨-, -, c', d, e⟩
      rw [c] at c'
      injection c' with c'
      cases t
      simp only [Session.redirectUri] at *
      simp [c', d, e]

/-! ## Examples -/

theorem decodesTexts_example : DecodesTexts fun b => (utf8Decode b).getD [] := by
  intro s
  simp [utf8Decode_utf8]

/-- texts with delimiters and with other than ASCII characters -/
example : IsForm "a%26b=x+y&%C3%A9=%3D%23".toList [("a&b".toList, "x y".toList), ("é".toList, "=#".toList)] := by
  have h := C98_urlencode [("a&b".toList, "x y".toList), ("é".toList, "=#".toList)]
  have e : urlencode [("a&b".toList, "x y".toList), ("é".toList, "=#".toList)] = "a%26b=x+y&%C3%A9=%3D%23".toList := by
    decide +kernel
  rwa [e] at h

/-- the public instance's endpoint -/
example : ∃ q, QueryOf (authUrl "https://oauth2.sigstore.dev/auth/auth".toList "sigstore".toList []
      ⟨"http://localhost:41/auth/callback".toList, "c".toList, "s".toList⟩) q ∧
    IsForm q (authorizationFields "sigstore".toList [] "http://localhost:41/auth/callback".toList "c".toList "s".toList) :=
  C98_authorization_url_partial _ _ _ _ (by decide) (by decide)

/-- a provider that identifies the tenant in the query: it sees no response type -/
example : ∃ q, QueryOf (authUrl "https://idp.example/authorize?tenant=a".toList "sigstore".toList []
      ⟨"u".toList, "c".toList, "s".toList⟩) q ∧
    ∀ fields, IsForm q fields → firstValue "response_type".toList fields = none ∧
      firstValue "tenant".toList fields = some "a?response_type=code".toList := by
  obtain ⟨q, h, hf⟩ := C98_endpoint_with_query "https://idp.example/authorize".toList "tenant".toList "a".toList "sigstore".toList []
    ⟨"u".toList, "c".toList, "s".toList⟩ (by decide) (by decide)
  refine ⟨q, h, fun fields hfields => ?_⟩
  rw [(hf fields).mp hfields]
  decide

example : IsCodeVerifier (codeVerifier (List.replicate 32 255)) := (C98_code_verifier _ rfl).1

/-- an honest redirect, with a parameter the client does not know and a code with a delimiter -/
example : ∃ m : Machine, m.requests = ["/auth/callback?code=a%26b&state=st&iss=x".toList] ∧
    tokenRequest exOSession []
      (serverStep (oauthLibs ⟨fun _ => true, fun _ => true⟩ (fun b => (utf8Decode b).getD []) id) exOSession m) =
      some (.ok ⟨"b/auth/callback".toList, "a&b".toList, "v".toList⟩) := by
  refine ⟨Machine.init true ["/auth/callback?code=a%26b&state=st&iss=x".toList], rfl, ?_⟩
  have hform : IsForm "code=a%26b&state=st&iss=x".toList
      [("code".toList, "a&b".toList), ("state".toList, "st".toList), ("iss".toList, "x".toList)] := by
    have h := C98_urlencode [("code".toList, "a&b".toList), ("state".toList, "st".toList), ("iss".toList, "x".toList)]
    have e : urlencode [("code".toList, "a&b".toList), ("state".toList, "st".toList), ("iss".toList, "x".toList)] =
        "code=a%26b&state=st&iss=x".toList := by decide +kernel
    rwa [e] at h
  refine (C98_redirect_iff _ _ decodesTexts_example id exOSession _ (by decide) _ hform _ ⟨rfl, rfl, rfl, rfl⟩ [] rfl [] _).mpr ?_
  decide

end Sigstore.Props
