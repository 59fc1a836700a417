import Verif.Spec.IdentityCommand
import Verif.Props.CliRoundtrip
import Verif.Props.CliMainExamples
import Verif.Props.Update

/-!
# C113: `get-identity-token` prints the token that the signing commands use; and when `update-trust-root` succeeds
-/

namespace Sigstore.Props

open Sigstore.Spec Sigstore.Cli Sigstore.Trust Sigstore.LogEntry Sigstore.Config Sigstore.Dsse Sigstore.Signing

theorem getIdentity_none (libs : IdentityLibs) (now : Time) (ident : IdentityArgs) (cfg : LoadedConfig) :
    getIdentity libs now ident cfg = signIdentity libs now { ident with identityToken := none } cfg := rfl

/-- **C113** `get-identity-token` succeeds exactly if the trust configuration can be loaded and there is an identity, then
prints the text of the token and nothing else, and changes nothing but cached trust material. -/
theorem C113_prints_iff (libs : MainLibs) (now : Time) (trust : TrustArgs) (ident : IdentityArgs) (s s' : MainState) :
    getIdentityTokenMain libs now trust ident s = (.ok (), s') ↔
      ∃ cfg t token, getTrustConfig (libs.sign.disk.fs s.sign.disk) libs.sign.tuf libs.sign.parsers trust s.sign.tuf = (.ok cfg, t) ∧
        IdentityFrom libs.sign.identity now { ident with identityToken := none } cfg token ∧
        s' = ⟨⟨t, s.sign.world, s.sign.disk⟩, s.queries, s.stdout ++ [token.raw]⟩ := by
  unfold getIdentityTokenMain
  cases hg : getTrustConfig (libs.sign.disk.fs s.sign.disk) libs.sign.tuf libs.sign.parsers trust s.sign.tuf with
  | mk r t =>
    cases r with
    | error e =>
      constructor
      · intro h; cases h
      · rintro ⟨cfg, t', token, h, _⟩; cases h
    | ok cfg =>
      dsimp only
      rw [getIdentity_none]
      cases hi : signIdentity libs.sign.identity now { ident with identityToken := none } cfg with
      | error e =>
        constructor
        · intro h; cases h
        · rintro ⟨cfg', t', token, h, h2, _⟩
          cases h
          rw [(C72_identity_iff _ _ _ _ _).2 h2] at hi
          cases hi
      | ok token =>
        constructor
        · intro h
          cases h
          exact ⟨cfg, t, token, rfl, (C72_identity_iff _ _ _ _ _).1 hi, rfl⟩
        · rintro ⟨cfg', t', token', h, h2, rfl⟩
          cases h
          rw [(C72_identity_iff _ _ _ _ _).2 h2] at hi
          cases hi
          rfl

/-- **C113** If it fails it prints nothing, and leaves everything but cached trust material as it was. -/
theorem C113_failure (libs : MainLibs) (now : Time) (trust : TrustArgs) (ident : IdentityArgs) (s s' : MainState) (e : Exc)
    (h : getIdentityTokenMain libs now trust ident s = (.error e, s')) :
    s'.stdout = s.stdout ∧ s'.sign.disk = s.sign.disk ∧ s'.sign.world = s.sign.world ∧ s'.queries = s.queries := by
  unfold getIdentityTokenMain at h
  cases hg : getTrustConfig (libs.sign.disk.fs s.sign.disk) libs.sign.tuf libs.sign.parsers trust s.sign.tuf with
  | mk r t =>
    rw [hg] at h
    cases r with
    | error e' => cases h; exact ⟨rfl, rfl, rfl, rfl⟩
    | ok cfg =>
      dsimp only at h
      cases hi : getIdentity libs.sign.identity now ident cfg with
      | error e' => rw [hi] at h; cases h; exact ⟨rfl, rfl, rfl, rfl⟩
      | ok token => rw [hi] at h; cases h

/-- **C113** A token that is printed is the one that `sign` and `attest` use when they are called with the same options at the
same time, and also when the printed text is passed to them with `--identity-token`, whatever configuration they use then. -/
theorem C113_same_identity (libs : IdentityLibs) (hm : MakesTokens libs) (now now' : Time) (ident : IdentityArgs)
    (cfg cfg' : LoadedConfig) (token : Oidc.IdentityToken)
    (h : IdentityFrom libs now { ident with identityToken := none } cfg token) :
    (NoExplicitToken ident → signIdentity libs now ident cfg = .ok token) ∧
    signIdentity libs now' { ident with identityToken := some token.raw } cfg' = .ok token := by
  constructor
  · intro hn
    have he : signIdentity libs now ident cfg = signIdentity libs now { ident with identityToken := none } cfg := by
      unfold signIdentity
      cases hi : ident.identityToken with
      | none => rfl
      | some x => rw [hn x hi]; rfl
    rw [he]
    exact (C72_identity_iff _ _ _ _ _).2 h
  · have hk : libs.token token.raw ident.clientId = .ok token := by
      cases h with
      | explicit h1 => cases h1
      | ambient _ _ _ _ h5 =>
        rw [(hm.keeps _ _ _ h5).1]
        exact h5
      | interactive _ _ _ _ h5 => exact hm.flow _ _ _ _ _ h5
    exact (C72_identity_iff _ _ _ _ _).2 (.explicit rfl (hm.keeps _ _ _ hk).2 hk)

section Main

variable {libs : MainLibs} (o : SignOracle) {environ : Environ} {line : CommandLine} (s s' : MainState)
variable (he : EnvironOk environ) (hl : LineOk line)
include he hl

/-- **C113** The same for the command line. -/
theorem C113_main (hc : line.command = .getIdentityToken) {trust : TrustArgs} {ident : IdentityArgs}
    (ht : TrustOptions environ line.top line.sub false trust) (hv : trust.rekorVersion = none)
    (hi : IdentityOptions environ line.sub false ident) :
    Cli.main libs o environ line s = (some (.ok ()), s') ↔
      ∃ cfg t token, getTrustConfig (libs.sign.disk.fs s.sign.disk) libs.sign.tuf libs.sign.parsers trust s.sign.tuf = (.ok cfg, t) ∧
        IdentityFrom libs.sign.identity o.now { ident with identityToken := none } cfg token ∧
        s' = ⟨⟨t, s.sign.world, s.sign.disk⟩, s.queries, s.stdout ++ [token.raw]⟩ := by
  rw [C89_get_identity_token libs o s he hl hc ht hv hi, ← C113_prints_iff]
  cases hr : getIdentityTokenMain libs o.now trust ident s with
  | mk r v =>
    constructor
    · intro h
      obtain ⟨h1, h2⟩ := Prod.mk.inj h
      have := (mainHandler_ok_iff _ _).1 (Option.some.inj h1)
      dsimp only at this h2
      rw [this, h2]
    · intro h
      cases h
      rfl

end Main

/-! ## `update-trust-root` -/

theorem fulcio_usable_iff (now : Time) (root : TrustedRoot Cert) :
    (∃ certs, getFulcioCerts now root = .ok certs) ↔ Usable now root := by
  by_cases hne : ∀ ca ∈ root.certificateAuthorities, ca.certificates ≠ []
  · have hm : ∀ ca : CertificateAuthority Cert, ca.certificates ≠ [] →
        (ca.certs now true ≠ [] ↔ ∀ r, ca.validFor = some r → r.start ≤ now) := by
      intro ca hca
      unfold CertificateAuthority.certs
      by_cases hv : isTimerangeValid now ca.validFor true = true
      · rw [if_pos hv]
        exact ⟨fun _ r hr => ((C12_usable_iff now ca.validFor true).1 hv r hr).1, fun _ => hca⟩
      · rw [if_neg hv]
        exact ⟨fun h => absurd rfl h, fun h => absurd ((C12_usable_iff now ca.validFor true).2 fun r hr => ⟨h r hr, .inl rfl⟩) hv⟩
    have hiff : (root.certificateAuthorities.flatMap fun ca => ca.certs now true) ≠ [] ↔
        ∃ ca ∈ root.certificateAuthorities, ∀ r, ca.validFor = some r → r.start ≤ now := by
      constructor
      · intro h
        obtain ⟨x, hx⟩ := List.exists_mem_of_ne_nil _ h
        obtain ⟨ca, hca, hx⟩ := List.mem_flatMap.1 hx
        exact ⟨ca, hca, (hm ca (hne ca hca)).1 (List.ne_nil_of_mem hx)⟩
      · rintro ⟨ca, hca, hv⟩
        obtain ⟨x, hx⟩ := List.exists_mem_of_ne_nil _ ((hm ca (hne ca hca)).2 hv)
        exact List.ne_nil_of_mem (List.mem_flatMap.2 ⟨ca, hca, hx⟩)
    unfold getFulcioCerts Usable
    rw [collectFulcioCerts_eq now _ hne, ← hiff]
    simp only [List.nil_append]
    cases hf : (root.certificateAuthorities.flatMap fun ca => ca.certs now true) with
    | nil =>
      constructor
      · rintro ⟨_, h⟩; cases h
      · rintro ⟨_, h⟩; exact absurd rfl h
    | cons x xs => exact ⟨fun _ => ⟨hne, List.cons_ne_nil _ _⟩, fun _ => ⟨_, rfl⟩⟩
  · constructor
    · rintro ⟨certs, h⟩
      exfalso
      apply hne
      unfold getFulcioCerts at h
      have key : ∀ (cas : List (CertificateAuthority Cert)) (acc r : List Cert), collectFulcioCerts now acc cas = .ok r →
          ∀ ca ∈ cas, ca.certificates ≠ [] := by
        intro cas
        induction cas with
        | nil => intro _ _ _ ca h; cases h
        | cons a as ih =>
          intro acc r h ca hca
          rw [collectFulcioCerts] at h
          unfold CertificateAuthority.init at h
          by_cases ha : a.certificates.isEmpty = true
          · rw [if_pos ha] at h; cases h
          · rw [if_neg ha] at h
            rcases List.mem_cons.1 hca with rfl | hca
            · intro h0; exact ha (List.isEmpty_iff.2 h0)
            · exact ih _ _ h ca hca
      cases hcol : collectFulcioCerts now [] root.certificateAuthorities with
      | error e => rw [hcol] at h; cases h
      | ok r => exact key _ _ _ hcol
    · rintro ⟨h, _⟩; exact absurd h hne

/-- **C114** `update-trust-root` succeeds exactly if trust material for the chosen instance can be obtained, and the trusted root
has the right media type and an authority whose period has begun; it prints nothing and changes nothing but cached trust
material. -/
theorem C114_update_iff (libs : MainLibs) (now : Time) (trust : TrustArgs) (s s' : MainState) :
    updateTrustRootMain libs now trust s = (.ok (), s') ↔
      ∃ cfg t, getTrustConfig (libs.sign.disk.fs s.sign.disk) libs.sign.tuf libs.sign.parsers trust s.sign.tuf = (.ok cfg, t) ∧
        cfg.rootMediaType = "application/vnd.dev.sigstore.trustedroot+json;version=0.1".toList ∧ Usable now cfg.root ∧
        s' = ⟨⟨t, s.sign.world, s.sign.disk⟩, s.queries, s.stdout⟩ := by
  unfold updateTrustRootMain
  cases hg : getTrustConfig (libs.sign.disk.fs s.sign.disk) libs.sign.tuf libs.sign.parsers trust s.sign.tuf with
  | mk r t =>
    cases r with
    | error e =>
      constructor
      · intro h; cases h
      · rintro ⟨cfg, t', h, _⟩; cases h
    | ok cfg =>
      dsimp only
      unfold LoadedConfig.trustedRoot
      rw [show (trustedRootMediaType : Str) = "application/vnd.dev.sigstore.trustedroot+json;version=0.1".toList from rfl]
      by_cases hmt : cfg.rootMediaType = "application/vnd.dev.sigstore.trustedroot+json;version=0.1".toList
      · rw [if_pos hmt]
        dsimp only
        cases hf : getFulcioCerts now cfg.root with
        | error e =>
          constructor
          · intro h; cases h
          · rintro ⟨cfg', t', h, _, hu, _⟩
            cases h
            obtain ⟨certs, hc⟩ := (fulcio_usable_iff now cfg.root).2 hu
            rw [hf] at hc
            cases hc
        | ok certs =>
          constructor
          · intro h
            cases h
            exact ⟨cfg, t, rfl, hmt, (fulcio_usable_iff now cfg.root).1 ⟨certs, hf⟩, rfl⟩
          · rintro ⟨cfg', t', h, _, _, rfl⟩
            cases h
            rfl
      · rw [if_neg hmt]
        constructor
        · intro h; cases h
        · rintro ⟨cfg', t', h, h2, _⟩
          cases h
          exact absurd h2 hmt

/-- **C114** After a successful `update-trust-root`, and any runs that leave the instance alone, commands with `--offline` load
the material of the update, which can be used for verification at the time of the update. -/
theorem C114_update_then_offline (libs : MainLibs) (now : Time) (trust : TrustArgs) (s s' : MainState) (fs : Fs) (env' : Tuf.Env)
    (url : Str) (runs : List TrustRun) (hc : Chosen trust (.tuf url)) (ho : trust.offline = false) (hp : ProperUrl url)
    (hs : StoresIn libs.sign.tuf.library (instanceDir libs.sign.tuf url))
    (h : updateTrustRootMain libs now trust s = (.ok (), s')) (hl : ∀ r ∈ runs, Leaves libs.sign.tuf url r)
    (hb : env'.cacheBase = libs.sign.tuf.cacheBase) :
    ∃ cfg, (getTrustConfig fs env' libs.sign.parsers { trust with offline := true } (afterRuns runs s'.sign.tuf)).1 = .ok cfg ∧
      cfg.rootMediaType = "application/vnd.dev.sigstore.trustedroot+json;version=0.1".toList ∧ Usable now cfg.root := by
  obtain ⟨cfg, t, hg, h1, h2, rfl⟩ := (C114_update_iff libs now trust s s').1 h
  exact ⟨cfg, C114_commands _ fs _ env' _ trust _ _ cfg url runs hc ho hp hs hg hl hb, h1, h2⟩

/-! ### Examples -/

/-- a token for a text -/
def exTokenOf (text : Str) : Oidc.IdentityToken := ⟨text, .null, .null, .null, [], none⟩

/-- a token in the environment, none from the flow -/
def exAmbient : IdentityLibs where
  detect _ := .ok (some "tok".toList)
  issuer _ := .error .network
  interactive _ _ _ _ := .error .identity
  token text _ := if text = [] then .error .identity else .ok (exTokenOf text)

theorem exAmbient_makes : MakesTokens exAmbient where
  keeps := by
    intro text c t h
    unfold exAmbient at h
    dsimp only at h
    split at h
    · cases h
    · rename_i hne; cases h; exact ⟨rfl, hne⟩
  flow := by intro u c x o t h; cases h

def exAmbientMain : MainLibs := { exMainSign with sign := { exSignLibs with identity := exAmbient } }

/-- the token is printed -/
example : (getIdentityTokenMain exAmbientMain 0 exTrust { exIdent with identityToken := none }
      ⟨exSignState [], [], []⟩).1 = .ok () ∧
    (getIdentityTokenMain exAmbientMain 0 exTrust { exIdent with identityToken := none } ⟨exSignState [], [], []⟩).2.stdout =
      ["tok".toList] := by decide +kernel

/-- and used if it is given back -/
example (cfg cfg' : LoadedConfig) :
    signIdentity exAmbient 7 { exIdent with identityToken := some "tok".toList } cfg' = .ok (exTokenOf "tok".toList) :=
  (C113_same_identity exAmbient exAmbient_makes 0 7 exIdent cfg cfg' (exTokenOf "tok".toList)
    (.ambient (by intro tok h; cases h) rfl rfl (by decide) rfl)).2

/-- the instance of the examples has an authority that has begun in 2017, and not at the epoch -/
example : (updateTrustRootMain exMainSign 1500000000 exTrust ⟨exSignState [], [], []⟩).1 = .ok () := by decide +kernel

end Sigstore.Props
