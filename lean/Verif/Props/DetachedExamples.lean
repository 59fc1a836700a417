import Verif.Props.CliRoundtripExamples
import Verif.Props.CliRoundtripMain
import Verif.Props.CliSignFrame

/-!
# Signing and then verifying with detached materials, in the world of `CliRoundtripExamples`

`sigstore sign --signature s --certificate c --no-default-files a` completes, and then
`sigstore verify identity --signature s --certificate c a` accepts `a` exactly with the issuer of the certificate.
-/

namespace Sigstore.Props

open Sigstore.Trust Sigstore.LogEntry Sigstore.Dsse Sigstore.Signing Sigstore.Cli Sigstore.Spec Sigstore.Args Sigstore.Rekor

open Classical in
/-- reading a certificate -/
noncomputable def detLoadPem (b : Bytes) : Option Cert :=
  if h : ∃ der, b = utf8 (pemText der ++ "\n".toList) then some (padCert h.choose) else none

/-- the libraries: certificates can be read, and the log can be searched -/
noncomputable def detLibs : MainLibs :=
  { padLibs with
    loadPem := detLoadPem
    retrieve := fun body => (padRekor (.hashedrekord body)).map some }

theorem detLibs_faithful : FaithfulLibs detLibs.sign.env detLibs.sign.kp detLibs.sign.toJson detLibs.parseBundle :=
  padLibs_faithful

theorem detLibs_pem : FaithfulPem detLibs.sign.env detLibs.loadPem := by
  intro cert h
  have h : some (padCert cert.der) = some cert := h
  have hex : ∃ der, utf8 (pemText cert.der ++ "\n".toList) = utf8 (pemText der ++ "\n".toList) := ⟨_, rfl⟩
  show detLoadPem _ = _
  unfold detLoadPem
  rw [dif_pos hex]
  have : hex.choose = cert.der := by
    have := utf8_injective hex.choose_spec
    exact pemText_injective (List.append_cancel_right this).symm
  rw [this, h]

/-- the arguments of `sigstore sign --signature s --certificate c --no-default-files a` -/
def detArgs : SignArgs := ⟨[exPath "a"], some (exPath "s"), some (exPath "c"), none, none, true, false⟩

theorem detArgs_files {f : Path} (h : f ∈ detArgs.files) : f = exPath "a" := List.mem_singleton.1 h

theorem detArgs_output {f p : Path} (h : SignOutput detArgs f p) : p = exPath "s" ∨ p = exPath "c" := by
  cases h with
  | signature h => exact .inl (Option.some.inj h).symm
  | certificate h => exact .inr (Option.some.inj h).symm
  | bundle h => cases h
  | inDirectory _ _ h => cases h
  | beside _ h _ => cases h

theorem detArgs_apart : SignOutputsApart detLibs.sign.disk detArgs := by
  refine ⟨?_, ?_, ?_⟩
  · intro f hf g hg hne
    rw [detArgs_files hf, detArgs_files hg] at hne
    exact absurd rfl hne
  · intro p q hp hq
    cases hp; cases hq
    show ¬ _; decide
  · intro f hf p q _ hq
    cases hq with
    | explicit h => cases h
    | inDirectory _ h _ => cases h
    | beside _ h _ => cases h

theorem detSigned : ∃ N s', ∀ M, N ≤ M →
    signMain detLibs.sign (padOracle ((List.range M).map fun _ => 0)) exTrust exIdent detArgs padState = (some (.ok ()), s') := by
  obtain ⟨services, hv, hset⟩ := padSetUp [] (d := padState.disk) (by decide) padState.tuf
  refine C103_sign_succeeds (o := padOracle []) padKeys_correct pad32_length hset (by rw [hv]; exact padAnswering _ _ _)
    (padHonest _ _ _) ?_ ?_ (fun _ _ _ _ _ => rfl) detArgs_apart (.inl rfl) (fun _ => 0) ?_
  · refine ⟨⟨by simp [detArgs], by simp [detArgs], by simp [detArgs], by simp [detArgs]⟩, ?_, ?_, ?_⟩
    · intro f hf
      rw [detArgs_files hf]
      exact ⟨_, rfl⟩
    · intro dir c _ h; cases h
    · intro _ f hf p hp
      rcases detArgs_output hp with rfl | rfl <;> decide
  · refine ⟨fun _ _ => rfl, ?_, ?_, ?_⟩
    · intro f hf p hp
      rcases detArgs_output hp with rfl | rfl <;> exact ⟨rfl, by decide⟩
    · intro f hf dir hd
      cases hd with
      | given h => cases h
      | beside _ =>
        rw [detArgs_files hf]
        exact ⟨rfl, fun c h => by cases h⟩
    · intro f hf p hp g hg dir hd q hq hpre he
      have hd : dir = ⟨false, []⟩ := by
        cases hd with
        | given h => cases h
        | beside _ => rw [detArgs_files hg]; rfl
      subst hd
      have hnil := List.prefix_nil.1 hpre
      have he : p = q := he
      subst he
      rcases detArgs_output hp with rfl | rfl <;> cases hnil
  · intro i hi t
    have : i = 0 := by
      have : i < 1 := hi
      omega
    exact ⟨t, le_refl _, this.symm⟩

/-- the line -/
def detSignLine : CommandLine :=
  ⟨[exOcc "--trust-config" "t"], [], .sign,
   [exOcc "--identity-token" "x", exOcc "--signature" "s", exOcc "--certificate" "c", exFlag "--no-default-files"], ["a".toList]⟩

/-- `sigstore --trust-config t verify identity --signature s --certificate c --cert-identity me --cert-oidc-issuer ISSUER a` -/
def detVerifyLine (issuer : String) : CommandLine :=
  ⟨[exOcc "--trust-config" "t"], [], .verifyIdentity,
   [exOcc "--signature" "s", exOcc "--certificate" "c", exOcc "--cert-identity" "me", exOcc "--cert-oidc-issuer" issuer],
   ["a".toList]⟩

theorem detVerifyLine_names (issuer : String) {o : Occ} (ho : o ∈ (detVerifyLine issuer).sub) :
    o.name = "--signature".toList ∨ o.name = "--certificate".toList ∨ o.name = "--cert-identity".toList ∨
      o.name = "--cert-oidc-issuer".toList := by
  simp only [detVerifyLine, List.mem_cons, List.not_mem_nil, or_false] at ho
  rcases ho with rfl | rfl | rfl | rfl
  · exact .inl rfl
  · exact .inr (.inl rfl)
  · exact .inr (.inr (.inl rfl))
  · exact .inr (.inr (.inr rfl))

/-- **C105** holds of two runs of the program. -/
example (issuer : String) (hne : issuer.toList ≠ []) (hlen : (utf8 issuer.toList).length < 4294967296) : ∃ M s',
    Cli.main detLibs (padOracle ((List.range M).map fun _ => 0)) exNoEnviron detSignLine ⟨padState, [], []⟩ = (some (.ok ()), s') ∧
    ((Cli.main detLibs { padOracle [] with now := 1800000000 } exNoEnviron (detVerifyLine issuer) s').1 = some (.ok ()) ↔
      issuer.toList = "https://i".toList) ∧
    (Cli.main detLibs { padOracle [] with now := 1800000000 } exNoEnviron (detVerifyLine issuer) s').2.queries.length = 1 := by
  obtain ⟨M, s', h⟩ := detSigned
  have h := h M (le_refl _)
  have hl : LineOk detSignLine := ((C89_accepted_iff exNoEnviron _).1 ⟨_, rfl⟩).2
  have ht : TrustOptions exNoEnviron detSignLine.top detSignLine.sub false exTrust := padTrustOptions (by decide)
  have hv : RekorVersion detLibs.int detSignLine.sub exTrust.rekorVersion := by rintro ⟨o, ho, n, hn, e⟩; revert o n; decide
  have hi : IdentityOptions exNoEnviron detSignLine.sub true exIdent :=
    ⟨.given (.here ⟨_, .head _, rfl⟩ rfl (by rintro ⟨o, ho, n, hn, e⟩; revert o n; decide)), exAbsent (by decide),
     exAbsent (by decide), exAbsentFlag (by decide), exAbsent (by decide), exAbsentFlag (by decide)⟩
  have hargs : SignOptions exNoEnviron detSignLine.sub detSignLine.positional detArgs :=
    ⟨rfl, ⟨some "s".toList, .given (.later (.here ⟨_, .head _, rfl⟩ rfl (by rintro ⟨o, ho, n, hn, e⟩; revert o n; decide))), rfl⟩,
     ⟨some "c".toList, .given (.later (.later (.here ⟨_, .head _, rfl⟩ rfl (by rintro ⟨o, ho, n, hn, e⟩; revert o n; decide)))), rfl⟩,
     exAbsentPath (by decide), exAbsentPath (by decide),
     ⟨fun _ => .inl ⟨exFlag "--no-default-files", by decide, _, List.mem_singleton.2 rfl, rfl⟩, fun _ => rfl⟩,
     exAbsentFlag (by decide)⟩
  have hmain : Cli.main detLibs (padOracle ((List.range M).map fun _ => 0)) exNoEnviron detSignLine ⟨padState, [], []⟩ =
      (some (.ok ()), ⟨s', [], []⟩) := by
    rw [C89_sign detLibs _ _ exSignLine_ok.1 hl rfl ht hv hi hargs, h]
    rfl
  refine ⟨M, _, hmain, ?_⟩
  have hkept : Kept padState.disk s'.disk := by
    have := C42_sign_keeps_files detLibs.sign (padOracle ((List.range M).map fun _ => 0)) exTrust exIdent detArgs padState rfl
    rwa [h] at this
  have hl₂ : LineOk (detVerifyLine issuer) := ((C89_accepted_iff exNoEnviron _).1 ⟨_, rfl⟩).2
  have habs : ∀ (names : List String),
      (∀ n ∈ names, n ∉ ["--signature", "--certificate", "--cert-identity", "--cert-oidc-issuer"]) →
      ∀ o ∈ (detVerifyLine issuer).sub, ∀ n ∈ names, o.name ≠ n.toList := by
    intro names h o ho n hn he
    have hname : ∀ m : String, m.toList = n.toList → m = n := fun m hm => String.toList_inj.1 hm
    refine h n hn ?_
    rcases detVerifyLine_names issuer ho with e | e | e | e <;> rw [← hname _ (e.symm.trans he)] <;> decide
  have hask : AsksFor exNoEnviron (detVerifyLine issuer) (.identity "me".toList issuer.toList) := by
    refine .identity rfl (.later (.later (.here ⟨_, .head _, rfl⟩ rfl ?_))) (.later (.later (.later (exLastGiven _ _))))
    rintro ⟨o, ho, n, hn, e⟩
    rw [List.mem_singleton] at hn ho
    subst hn ho
    revert e; dsimp only [exOcc]; decide
  have hm₂ : VerifyOptions exNoEnviron (detVerifyLine issuer).sub (some (exPath "c")) (some (exPath "s")) none := by
    refine ⟨⟨some "c".toList, .given (.later (.here ⟨_, .head _, rfl⟩ rfl ?_)), rfl⟩,
      ⟨some "s".toList, .given (.here ⟨_, .head _, rfl⟩ rfl ?_), rfl⟩, exAbsentPath (habs _ (by decide))⟩
    · rintro ⟨o, ho, n, hn, e⟩
      simp only [List.mem_cons, List.not_mem_nil, or_false] at ho hn
      rcases hn with rfl | rfl <;> rcases ho with rfl | rfl <;> revert e <;> dsimp only [exOcc] <;> decide
    · rintro ⟨o, ho, n, hn, e⟩
      rw [List.mem_singleton] at hn
      subst hn
      simp only [List.mem_cons, List.not_mem_nil, or_false] at ho
      rcases ho with rfl | rfl | rfl <;> revert e <;> dsimp only [exOcc] <;> decide
  obtain ⟨token, cert, content, sig, h1, h2, _, h3⟩ := C105_main_sign detLibs detLibs_faithful
    (padOracle ((List.range M).map fun _ => 0)) { padOracle [] with now := 1800000000 } ⟨padState, [], []⟩ ⟨s', [], []⟩
    exSignLine_ok.1 hl ht hv hi exSignLine_ok.1 hl₂ hask (trust₂ := exTrust) (padTrustOptions (habs _ (by decide))) rfl
    (by rw [hmain]; exact fun _ _ h => h) detLibs_pem hm₂ (arg := "a".toList) rfl rfl hargs (by rw [hmain]) (f := exPath "a")
    (List.mem_singleton.2 rfl) rfl rfl detArgs_apart (.inl rfl)
  obtain ⟨_, chain, h2⟩ := h2
  obtain ⟨rfl, _⟩ := Prod.mk.inj (Except.ok.inj h2)
  have hreq : DetachedRequest detLibs s'.disk 1800000000 "a".toList (some (exPath "c")) (some (exPath "s")) exTrust ⟨s'.tuf, []⟩
      padConfig [exIssuer] (exPath "a") (exPath "c") (exPath "s") (detLibs.sign.env.crypto.sha256 content) := by
    refine ⟨rfl, .file rfl (.inl (by simp)) rfl rfl (.inr ?_), ⟨rfl, rfl⟩, padLoads (hkept _ _ (by decide)) _, rfl, by decide⟩
    intro c hc
    have := C42_sign_only_outputs detLibs.sign (padOracle ((List.range M).map fun _ => 0)) exTrust exIdent detArgs padState
      ((exPath "a").parent.join ((exPath "a").name ++ ".sigstore".toList)) (by
        intro f hf p hp
        rcases detArgs_output hp with rfl | rfl <;> show ¬ _ <;> decide)
    rw [h] at this
    rcases this with this | ⟨_, this⟩
    · have := hc.symm.trans this
      revert this
      show ¬ _
      have : padState.disk ((exPath "a").parent.join ((exPath "a").name ++ ".sigstore".toList)) = none := by decide
      rw [this]
      exact fun h => by cases h
    · exact absurd (hc.symm.trans this) (by simp)
  obtain ⟨g1, _, g2⟩ := h3 padConfig [exIssuer] padCt padLog (honestServices_mono (padHonest [] [] _) (fun _ h => h.elim)) hreq
    (List.nodup_singleton _) hlen ⟨_, rfl⟩
  have hret : ∀ body, ∃ entry, detLibs.retrieve body = .ok (some entry) ∧
      ∀ ms spki, Logged padEnv padLog ms (padCert spki) (.hashedrekord body) entry := by
    intro body
    have hex : ∃ r, Records padCrypto (.hashedrekord body) r := ⟨_, .hashedrekord _⟩
    refine ⟨padEntry hex.choose, ?_, padEntry_logged _ _ hex.choose_spec⟩
    show (padRekor _).map some = _
    unfold padRekor
    rw [dif_pos hex]
    rfl
  obtain ⟨entry, r1, r2⟩ := hret _
  refine ⟨(g2 entry r1 (r2 _ _)).trans (padCert_policy _ issuer hne), ?_⟩
  · rw [g1]; rfl

/-- **C42** `--overwrite` does not endanger other files: `t` is as before. -/
example (o : SignOracle) : (signMain padLibs.sign o exTrust exIdent { detArgs with overwrite := true } padState).2.disk (exPath "t") =
    padState.disk (exPath "t") := by
  rcases C42_sign_only_outputs padLibs.sign o exTrust exIdent { detArgs with overwrite := true } padState (exPath "t") (by
    intro f hf p hp
    have : p = exPath "s" ∨ p = exPath "c" := by
      cases hp with
      | signature h => exact .inl (Option.some.inj h).symm
      | certificate h => exact .inr (Option.some.inj h).symm
      | bundle h => cases h
      | inDirectory _ _ h => cases h
      | beside _ h _ => cases h
    rcases this with rfl | rfl <;> show ¬ _ <;> decide) with h | ⟨h, _⟩
  · exact h
  · have h' : padState.disk (exPath "t") = some (.file [3]) := by decide
    rw [h'] at h
    cases h

/-- **C42** and for `attest` -/
example (o : SignOracle) : (attestMain padLibs.sign o exTrust exIdent { exAttestArgs with overwrite := true } padState).2.disk
    (exPath "p") = padState.disk (exPath "p") := by
  refine C42_attest_only_outputs _ _ _ _ _ _ _ ?_
  intro f hf p hp
  have hb : p = f.parent.join (f.name ++ ".sigstore.json".toList) := by
    cases hp with
    | explicit h => cases h
    | beside _ => rfl
  rw [hb]
  rcases exAttestArgs_files hf with rfl | rfl <;> show ¬ _ <;> decide

end Sigstore.Props
