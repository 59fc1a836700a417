import Mathlib.Tactic.DeriveCountable
import Verif.Props.CliComplete
import Verif.Props.CliMainExamples
import Verif.Props.EndToEndExamples

/-!
# Signing and then verifying, in the world of `EndToEndExamples`

All hypotheses of C102 and C103 can be met at the same time: in a world where keys are byte strings, bundles are written as
their number (in unary), and the log accepts every request, `sigstore sign a b` completes and then `sigstore verify identity`
accepts `a`; likewise `sigstore attest`.
-/

namespace Sigstore.Props

open Sigstore.Trust Sigstore.LogEntry Sigstore.Dsse Sigstore.Signing Sigstore.Cli Sigstore.Spec Sigstore.Args Sigstore.Rekor

deriving instance Countable for Merkle.InclusionProof
deriving instance Countable for LogEntry
deriving instance Countable for MessageSignature
deriving instance Countable for EnvelopeMsg
deriving instance Countable for BundleMsg

/-- a text for each value -/
noncomputable def padText {α : Type} [Countable α] (x : α) : Str := List.replicate (encodeBody x).length 'x'

theorem utf8_replicate (n : Nat) : utf8 (List.replicate n 'x') = List.replicate n 120 := by
  induction n with
  | zero => rfl
  | succ n ih =>
    rw [List.replicate_succ, List.replicate_succ, ← List.singleton_append, utf8_append, ih]
    rfl

theorem decode_padText {α : Type} [Countable α] (x : α) (n : Nat) (h : (encodeBody x).length = n) :
    decodeBody α (List.replicate n 0) = some x := by
  subst h
  have : List.replicate (encodeBody x).length 0 = encodeBody x := by
    unfold encodeBody; rw [List.length_replicate]
  rw [this, decodeBody_encodeBody]

/-- statements with one subject and the predicate `exPredicate`, in unary -/
noncomputable def padCodec : StatementCodec where
  parse b := (decodeBody (Str × Str × Str) (List.replicate b.length 0)).map fun x =>
    match exPredicate with
    | .obj pred => ⟨[⟨some x.1, [("sha256".toList, x.2.1)]⟩], x.2.2, some pred⟩
    | _ => ⟨[], [], none⟩
  dump st :=
    match st with
    | ⟨[⟨some name, [(_, digest)]⟩], pt, _⟩ => utf8 (padText (name, digest, pt))
    | _ => []

/-- the libraries -/
noncomputable def padLibs : MainLibs where
  sign :=
    { exSignLibs with
      env := padEnv
      kp := padKeys
      parsers :=
        { exSignLibs.parsers with
          config := fun b => if b = [3] then .ok ⟨[], exRootMediaType, padRoot, exSigningConfig⟩ else .error .pydantic }
      codec := padCodec
      toJson := fun b => padText b.inner }
  parseBundle b :=
    match decodeBody BundleMsg (List.replicate (b.length - 1) 0) with
    | some m => .ok m
    | none => .error .pydantic
  loadPem _ := none
  retrieve _ := .error .rekorClient
  fetch _ _ := .error .rekorClient
  int _ := none
  localeEncode t := some (utf8 t)

theorem padLibs_faithful : FaithfulLibs padLibs.sign.env padLibs.sign.kp padLibs.sign.toJson padLibs.parseBundle where
  keys := padKeys_correct
  sha256 := pad32_length
  numbers := padInt
  json b _ := by
    show (match decodeBody BundleMsg (List.replicate ((utf8 (padText b.inner ++ "\n".toList)).length - 1) 0) with
      | some m => Except.ok m | none => Except.error Exc.pydantic) = _
    have h : (utf8 (padText b.inner ++ "\n".toList)).length - 1 = (encodeBody b.inner).length := by
      rw [utf8_append, padText, utf8_replicate, List.length_append, List.length_replicate]
      rfl
    rw [decode_padText b.inner _ h.symm]

theorem padCodec_readsBack : StatementsReadBack padLibs.sign := by
  intro text pred h pt
  have hp : exPredicate = .obj pred := Option.some.inj h
  rintro _ _ ⟨⟩ name digest
  refine ⟨?_, _, rfl⟩
  show (decodeBody (Str × Str × Str) (List.replicate (utf8 (padText (name, digest, pt))).length 0)).map _ = _
  rw [decode_padText (name, digest, pt) _ (by rw [padText, utf8_replicate, List.length_replicate])]
  rw [hp]
  rfl

/-- the services -/
noncomputable def padOracle (schedule : List Nat) : SignOracle where
  now := 1600000000
  first _ := padAnswers
  shown := padAnswers
  perFile _ := (padAnswers, padAnswers)
  schedule := schedule
  order := []

/-- the two threads take turns, for ever -/
def padTurns (t : Nat) : Nat := t % 2

theorem padTurns_fair : FairFor 2 padTurns := by
  intro i hi t
  refine ⟨2 * t + i, by omega, ?_⟩
  unfold padTurns
  omega

/-- what `--trust-config t` loads -/
def padConfig : LoadedConfig := ⟨exRootMediaType, padRoot, exSigningConfig, none⟩

theorem padLoads {d : Disk} (h : d (exPath "t") = some (.file [3])) (w : Tuf.World) :
    (getTrustConfig (padLibs.sign.disk.fs d) padLibs.sign.tuf padLibs.sign.parsers exTrust w).1 = .ok padConfig := by
  have hr : (padLibs.sign.disk.fs d).read (exPath "t") = .ok [3] := by
    show (match d (exPath "t") with | some (.file c) => if true = true then Except.ok c else _ | _ => _) = _
    rw [h]
    rfl
  unfold getTrustConfig
  rw [show trustSource exTrust = .file (exPath "t") from rfl]
  dsimp only
  rw [hr]
  rfl

theorem padSetUp (schedule : List Nat) {d : Disk} (h : d (exPath "t") = some (.file [3])) (w : Tuf.World) :
    ∃ services, apiVersionOf services.rekor = .v1 ∧
      SetUp padLibs.sign (padOracle schedule) exTrust exIdent w d padConfig services exToken :=
  ⟨_, rfl, padLoads h w, rfl, rfl⟩

theorem padAnswering (schedule : List Nat) (files : List Path) (keys : Nat) :
    Answering padLibs.sign (padOracle schedule) files keys padConfig.root .v1 exToken padCt (padCert (padKeys.pub keys).spki) where
  tokenValid := rfl
  issued := ⟨_, rfl⟩
  ctTrusted := padTrusted _ (by simp)
  shown := show (1600000000 : Int) ≤ 2000000000 by decide
  inTime _ _ := ⟨show (1600000000 : Int) ≤ 2000000000 by decide, show (1600000000 : Int) ≤ 2000000000 by decide⟩
  replies _ _ request h := by
    change ∃ r, Records padCrypto request r at h
    exact ⟨padEntry h.choose, by show padRekor request = _; unfold padRekor; rw [dif_pos h]⟩
  times := .inl rfl

theorem padHonest (schedule : List Nat) (files : List Path) (spki : Bytes) :
    HonestServices padLibs.sign.env 1800000000 ⟨padRoot, [exIssuer]⟩ padCt padLog (padCert spki)
      ((padOracle schedule).first exToken) (fun a => ∃ f ∈ files, a = ((padOracle schedule).perFile f).1) where
  ctTrusted := padTrusted _ (by simp)
  logTrusted := padTrusted _ (by simp)
  properTsas := by intro ca hc; rw [List.mem_singleton.1 hc]; exact ⟨by simp, by simp⟩
  fulcio := padFulcio_honest
  rekor := by rintro a ⟨f, _, rfl⟩; exact padRekor_honest _ _
  tsas := by rintro a ⟨f, _, rfl⟩; exact padTsas_honest _

/-- the state before the command: the files `a` and `b`, the predicate `p` and the trust configuration `t` -/
def padState : SignState := exSignState [(exPath "a", 1), (exPath "b", 2), (exPath "p", 5)]

theorem exSignArgs_files {f : Path} (h : f ∈ exSignArgs.files) : f = exPath "a" ∨ f = exPath "b" := by
  simpa [exSignArgs] using h

/-- the only output of `sigstore sign a b` for a file is next to it -/
theorem exSignArgs_output {f p : Path} (h : SignOutput exSignArgs f p) :
    p = f.parent.join (f.name ++ ".sigstore.json".toList) := by
  cases h with
  | signature h => cases h
  | certificate h => cases h
  | bundle h => cases h
  | inDirectory _ _ h => cases h
  | beside _ _ _ => rfl

theorem exSignArgs_apart : SignOutputsApart padLibs.sign.disk exSignArgs := by
  refine ⟨?_, fun _ _ h => (nomatch h), fun _ _ _ _ h => h.elim (fun h => nomatch h) (fun h => nomatch h)⟩
  intro f hf g hg hfg p q hp hq
  rw [exSignArgs_output hp, exSignArgs_output hq]
  rcases exSignArgs_files hf with rfl | rfl <;> rcases exSignArgs_files hg with rfl | rfl
  · exact absurd rfl hfg
  · show ¬ _; decide
  · show ¬ _; decide
  · exact absurd rfl hfg

/-- **C103** holds of `sigstore sign a b` -/
theorem padSigned : ∃ N s', ∀ M, N ≤ M →
    signMain padLibs.sign (padOracle ((List.range M).map padTurns)) exTrust exIdent exSignArgs padState = (some (.ok ()), s') := by
  obtain ⟨services, hv, hset⟩ := padSetUp [] (d := padState.disk) (by decide) padState.tuf
  refine C103_sign_succeeds (o := padOracle []) padKeys_correct pad32_length hset (by rw [hv]; exact padAnswering _ _ _)
    (padHonest _ _ _) ?_ ?_ (fun _ _ _ _ _ => rfl) ?_ (.inl rfl) padTurns padTurns_fair
  · refine ⟨⟨by simp [exSignArgs], by simp [exSignArgs], by simp [exSignArgs], by simp [exSignArgs]⟩, ?_, ?_, ?_⟩
    · intro f hf
      rcases exSignArgs_files hf with rfl | rfl <;> exact ⟨_, rfl⟩
    · intro dir c _ h; cases h
    · intro _ f hf p hp
      rw [exSignArgs_output hp]
      rcases exSignArgs_files hf with rfl | rfl <;> decide
  · refine ⟨fun _ _ => rfl, ?_, ?_, ?_⟩
    · intro f hf p hp
      rw [exSignArgs_output hp]
      rcases exSignArgs_files hf with rfl | rfl <;> exact ⟨rfl, by decide⟩
    · intro f hf dir hd
      cases hd with
      | given h => cases h
      | beside _ =>
        refine ⟨rfl, ?_⟩
        intro c
        rcases exSignArgs_files hf with rfl | rfl <;> exact fun h => by cases h
    · intro f hf p hp g hg dir hd q hq hpre he
      rw [exSignArgs_output hp] at he
      have hq' : q = (exPath "a").parent.join ((exPath "a").name ++ ".sigstore.json".toList) ∨
          q = (exPath "b").parent.join ((exPath "b").name ++ ".sigstore.json".toList) := by
        rcases exSignArgs_files hf with rfl | rfl
        · exact .inl he.symm
        · exact .inr he.symm
      have hd : dir = ⟨false, []⟩ := by
        cases hd with
        | given h => cases h
        | beside _ => rcases exSignArgs_files hg with rfl | rfl <;> rfl
      subst hd
      have := List.prefix_nil.1 hpre
      rcases hq' with rfl | rfl <;> cases this
  · exact exSignArgs_apart

theorem padTrustOptions {sub : List Occ} {offline : Bool} (h : ∀ o ∈ sub, ∀ n ∈ ["--offline"], o.name ≠ n.toList) :
    TrustOptions exNoEnviron [exOcc "--trust-config" "t"] sub offline exTrust := by
  refine ⟨⟨some "t".toList, .given (exLastGiven _ _), rfl⟩, exAbsent (by decide), exAbsentFlag (by decide), ?_⟩
  cases offline with
  | false => rfl
  | true => exact exAbsentFlag h

/-- `sigstore --trust-config t verify identity --bundle a.sigstore.json --cert-identity me --cert-oidc-issuer ISSUER a` -/
def padVerifyLine (issuer : String) : CommandLine :=
  ⟨[exOcc "--trust-config" "t"], [], .verifyIdentity,
   [exOcc "--bundle" "a.sigstore.json", exOcc "--cert-identity" "me", exOcc "--cert-oidc-issuer" issuer], ["a".toList]⟩

theorem padVerifyLine_ok (issuer : String) : LineOk (padVerifyLine issuer) :=
  ((C89_accepted_iff exNoEnviron _).1 ⟨_, rfl⟩).2

theorem padCert_policy (spki : Bytes) (issuer : String) (hne : issuer.toList ≠ []) :
    ((issuer.toList ≠ [] → Claims (padCert spki) .oidcIssuer issuer.toList) ∧ IssuedTo (padCert spki) "me".toList ∧
      (∀ names, (padCert spki).san = some names → OtherNamesDecodable names)) ↔ issuer.toList = "https://i".toList := by
  constructor
  · rintro ⟨h, _⟩
    obtain ⟨n, enc, ht, hm⟩ := h hne
    have hm := List.mem_singleton.1 hm
    have h1 : n = 1 := by
      have h := (Prod.mk.inj hm).1
      simpa [Policy.fulcioArc] using h
    subst h1
    have : enc = .raw := by
      revert ht; cases enc <;> decide
    subst this
    exact utf8_injective (Prod.mk.inj hm).2
  · intro h
    refine ⟨fun _ => ⟨1, .raw, by decide, ?_⟩, ⟨_, rfl, .inl (List.mem_singleton.2 rfl)⟩, ?_⟩
    · rw [h]; exact List.mem_singleton.2 rfl
    · rintro _ ⟨⟩ v hv
      cases List.mem_singleton.1 hv

section Verify

variable (issuer : String)

theorem padVerifyLine_trust : TrustOptions exNoEnviron (padVerifyLine issuer).top (padVerifyLine issuer).sub true exTrust :=
  padTrustOptions (by
    intro o ho n hn
    rw [List.mem_singleton] at hn
    subst hn
    simp only [padVerifyLine, List.mem_cons, List.not_mem_nil, or_false] at ho
    rcases ho with rfl | rfl | rfl <;> exact fun e => by revert e; dsimp only [exOcc]; decide)

theorem padVerifyLine_materials :
    VerifyOptions exNoEnviron (padVerifyLine issuer).sub none none (some (exPath "a.sigstore.json")) := by
  have habs : ∀ (names : List String), (∀ n ∈ names, n ∉ ["--bundle", "--cert-identity", "--cert-oidc-issuer"]) →
      ∀ o ∈ (padVerifyLine issuer).sub, ∀ n ∈ names, o.name ≠ n.toList := by
    intro names h o ho n hn he
    have hname : ∀ m : String, m.toList = n.toList → m = n := fun m hm => String.toList_inj.1 hm
    simp only [padVerifyLine, List.mem_cons, List.not_mem_nil, or_false] at ho
    refine h n hn ?_
    rcases ho with rfl | rfl | rfl <;> rw [← hname _ he] <;> decide
  refine ⟨exAbsentPath (habs _ (by decide)), exAbsentPath (habs _ (by decide)),
    ⟨some "a.sigstore.json".toList, .given (.here ⟨_, .head _, rfl⟩ rfl ?_), rfl⟩⟩
  rintro ⟨o, ho, n, hn, e⟩
  rw [List.mem_singleton] at hn
  subst hn
  simp only [List.mem_cons, List.not_mem_nil, or_false] at ho
  rcases ho with rfl | rfl <;> revert e <;> dsimp only [exOcc] <;> decide

theorem padVerifyLine_identity : LastGiven ["--cert-identity"] (padVerifyLine issuer).sub "me".toList := by
  refine .later (.here ⟨_, .head _, rfl⟩ rfl ?_)
  rintro ⟨o, ho, n, hn, e⟩
  rw [List.mem_singleton] at hn ho
  subst hn ho
  revert e; dsimp only [exOcc]; decide

theorem padVerifyLine_issuer : LastGiven ["--cert-oidc-issuer"] (padVerifyLine issuer).sub issuer.toList :=
  .later (.later (exLastGiven _ _))

theorem padVerifyRequest {d : Disk} (h : d (exPath "t") = some (.file [3])) {Signed : Path → Path → Prop}
    (hs : Signed (exPath "a") (exPath "a.sigstore.json")) (w : VerifyWorld) :
    VerifyRequest padLibs d 1800000000 (padVerifyLine issuer).positional (some (exPath "a.sigstore.json")) exTrust w padConfig
      [exIssuer] Signed := by
  refine ⟨by simp [padVerifyLine], fun _ => by simp [padVerifyLine], ?_, padLoads h _, rfl, by decide⟩
  intro arg ha
  rw [show (padVerifyLine issuer).positional = ["a".toList] from rfl, List.mem_singleton] at ha
  subst ha
  exact ⟨exPath "a.sigstore.json", hs, rfl, .explicit rfl⟩

end Verify

/-- **C103** and **C102** together: `sigstore sign a b` completes, and `sigstore verify identity` then accepts `a` exactly with the
issuer of the certificate. -/
example (issuer : String) (hne : issuer.toList ≠ []) (hlen : (utf8 issuer.toList).length < 4294967296) : ∃ M s',
    Cli.main padLibs (padOracle ((List.range M).map padTurns)) exNoEnviron exSignLine ⟨padState, [], []⟩ = (some (.ok ()), s') ∧
    ((Cli.main padLibs { padOracle [] with now := 1800000000 } exNoEnviron (padVerifyLine issuer) s').1 = some (.ok ()) ↔
      issuer.toList = "https://i".toList) := by
  obtain ⟨M, s', h⟩ := padSigned
  have h := h M (le_refl _)
  have ht : TrustOptions exNoEnviron exSignLine.top exSignLine.sub false exTrust := padTrustOptions (by decide)
  have hv : RekorVersion padLibs.int exSignLine.sub exTrust.rekorVersion := by rintro ⟨o, ho, n, hn, e⟩; revert o n; decide
  have hi : IdentityOptions exNoEnviron exSignLine.sub true exIdent :=
    ⟨.given (exLastGiven "--identity-token" "x"), exAbsent (by decide), exAbsent (by decide), exAbsentFlag (by decide),
     exAbsent (by decide), exAbsentFlag (by decide)⟩
  have hargs : SignOptions exNoEnviron exSignLine.sub exSignLine.positional exSignArgs :=
    ⟨rfl, exAbsentPath (by decide), exAbsentPath (by decide), exAbsentPath (by decide), exAbsentPath (by decide),
     exAbsentFlag (by decide), exAbsentFlag (by decide)⟩
  have hmain : Cli.main padLibs (padOracle ((List.range M).map padTurns)) exNoEnviron exSignLine ⟨padState, [], []⟩ =
      (some (.ok ()), ⟨s', [], []⟩) := by
    rw [C89_sign padLibs _ _ exSignLine_ok.1 exSignLine_ok.2 rfl ht hv hi hargs, h]
    rfl
  refine ⟨M, _, hmain, ?_⟩
  have hkept : Kept padState.disk s'.disk := by
    have := C42_sign_keeps_files padLibs.sign (padOracle ((List.range M).map padTurns)) exTrust exIdent exSignArgs padState rfl
    rwa [h] at this
  obtain ⟨token, cert, h1, h2, h3⟩ := C102_main_sign padLibs padLibs_faithful (padOracle ((List.range M).map padTurns))
    { padOracle [] with now := 1800000000 } ⟨padState, [], []⟩ ⟨s', [], []⟩ exSignLine_ok.1 exSignLine_ok.2 ht hv hi
    exSignLine_ok.1 (padVerifyLine_ok issuer) rfl (trust₂ := exTrust) (padVerifyLine_trust issuer) rfl
    (bundle := some (exPath "a.sigstore.json")) (identity := "me".toList) (issuer := issuer.toList)
    (padVerifyLine_materials issuer) (padVerifyLine_identity issuer) (padVerifyLine_issuer issuer)
    (by rw [hmain]; exact fun _ _ h => h) rfl hargs (by rw [hmain]) exSignArgs_apart (.inl rfl)
  obtain ⟨_, chain, h2⟩ := h2
  obtain ⟨rfl, _⟩ := Prod.mk.inj (Except.ok.inj h2)
  refine (h3 padConfig [exIssuer] padCt padLog (padHonest _ _ _) ?_ ?_ ?_).trans (padCert_policy _ issuer hne)
  · exact padVerifyRequest issuer (hkept _ _ (by decide)) ⟨by decide, .beside rfl rfl rfl⟩ _
  · exact List.nodup_singleton _
  · exact hlen

/-! ## `sigstore attest` -/

theorem exAttestArgs_files {f : Path} (h : f ∈ exAttestArgs.files) : f = exPath "a" ∨ f = exPath "b" := by
  simpa [exAttestArgs] using h

theorem exAttestArgs_bundle {f p : Path} (h : AttestBundlePath exAttestArgs f p) :
    p = f.parent.join (f.name ++ ".sigstore.json".toList) := by
  cases h with
  | explicit h => cases h
  | beside _ => rfl

theorem exAttestArgs_apart : ∀ f ∈ exAttestArgs.files, ∀ g ∈ exAttestArgs.files, f ≠ g → ∀ p q,
    AttestBundlePath exAttestArgs f p → AttestBundlePath exAttestArgs g q →
    padLibs.sign.disk.resolve p ≠ padLibs.sign.disk.resolve q := by
  intro f hf g hg hfg p q hp hq
  rw [exAttestArgs_bundle hp, exAttestArgs_bundle hq]
  rcases exAttestArgs_files hf with rfl | rfl <;> rcases exAttestArgs_files hg with rfl | rfl
  · exact absurd rfl hfg
  · show ¬ _; decide
  · show ¬ _; decide
  · exact absurd rfl hfg

/-- **C103** holds of `sigstore attest --predicate p --predicate-type https://slsa.dev/provenance/v1 a b` -/
theorem padAttested : ∃ N s', ∀ M, N ≤ M →
    attestMain padLibs.sign (padOracle ((List.range M).map padTurns)) exTrust exIdent exAttestArgs padState =
      (some (.ok ()), s') := by
  obtain ⟨services, hv, hset⟩ := padSetUp [] (d := padState.disk) (by decide) padState.tuf
  refine C103_attest_succeeds (o := padOracle []) padKeys_correct pad32_length hset (by rw [hv]; exact padAnswering _ _ _)
    (padHonest _ _ _) ⟨⟨[5], [Char.ofNat 5], _, rfl, by decide, rfl, .inr ⟨rfl, (C88_v1_iff_partial _).1 (by decide)⟩⟩, ?_, ?_⟩
    (fun _ _ => rfl) ?_ exAttestArgs_apart (.inl rfl) padTurns padTurns_fair
  · intro f hf
    rcases exAttestArgs_files hf with rfl | rfl <;> exact ⟨_, rfl⟩
  · intro _ f hf p hp
    rw [exAttestArgs_bundle hp]
    rcases exAttestArgs_files hf with rfl | rfl <;> decide
  · intro f hf p hp
    rw [exAttestArgs_bundle hp]
    rcases exAttestArgs_files hf with rfl | rfl <;> exact ⟨⟨rfl, fun _ => rfl⟩, by decide⟩

/-- the line -/
def padAttestLine : CommandLine :=
  ⟨[exOcc "--trust-config" "t"], [], .attest,
   [exOcc "--identity-token" "x", exOcc "--predicate" "p", exOcc "--predicate-type" "https://slsa.dev/provenance/v1"],
   ["a".toList, "b".toList]⟩

/-- **C103** and **C102** for `sigstore attest` -/
example (issuer : String) (hne : issuer.toList ≠ []) (hlen : (utf8 issuer.toList).length < 4294967296) : ∃ M s',
    Cli.main padLibs (padOracle ((List.range M).map padTurns)) exNoEnviron padAttestLine ⟨padState, [], []⟩ = (some (.ok ()), s') ∧
    ((Cli.main padLibs { padOracle [] with now := 1800000000 } exNoEnviron (padVerifyLine issuer) s').1 = some (.ok ()) ↔
      issuer.toList = "https://i".toList) := by
  obtain ⟨M, s', h⟩ := padAttested
  have h := h M (le_refl _)
  have hl : LineOk padAttestLine := ((C89_accepted_iff exNoEnviron _).1 ⟨_, rfl⟩).2
  have ht : TrustOptions exNoEnviron padAttestLine.top padAttestLine.sub false exTrust := padTrustOptions (by decide)
  have hv : RekorVersion padLibs.int padAttestLine.sub exTrust.rekorVersion := by rintro ⟨o, ho, n, hn, e⟩; revert o n; decide
  have hi : IdentityOptions exNoEnviron padAttestLine.sub true exIdent :=
    ⟨.given (.here ⟨_, .head _, rfl⟩ rfl (by rintro ⟨o, ho, n, hn, e⟩; revert o n; decide)),
     exAbsent (by decide), exAbsent (by decide), exAbsentFlag (by decide), exAbsent (by decide), exAbsentFlag (by decide)⟩
  have hargs : AttestOptions exNoEnviron padAttestLine.sub padAttestLine.positional exAttestArgs :=
    ⟨rfl, ⟨_, .later (.here ⟨_, .head _, rfl⟩ rfl (by rintro ⟨o, ho, n, hn, e⟩; revert o n; decide)), rfl⟩,
     .later (.later (exLastGiven _ _)), .inr rfl, exAbsentPath (by decide), exAbsentFlag (by decide)⟩
  have hmain : Cli.main padLibs (padOracle ((List.range M).map padTurns)) exNoEnviron padAttestLine ⟨padState, [], []⟩ =
      (some (.ok ()), ⟨s', [], []⟩) := by
    rw [C89_attest padLibs _ _ exSignLine_ok.1 hl rfl ht hv hi hargs, h]
    rfl
  refine ⟨M, _, hmain, ?_⟩
  have hkept : Kept padState.disk s'.disk := by
    have := C42_attest_keeps_files padLibs.sign (padOracle ((List.range M).map padTurns)) exTrust exIdent exAttestArgs padState rfl
    rwa [h] at this
  obtain ⟨token, cert, h1, h2, h3⟩ := C102_main_attest padLibs padLibs_faithful (padOracle ((List.range M).map padTurns))
    { padOracle [] with now := 1800000000 } ⟨padState, [], []⟩ ⟨s', [], []⟩ exSignLine_ok.1 hl ht hv hi
    exSignLine_ok.1 (padVerifyLine_ok issuer) rfl (padVerifyLine_trust issuer) rfl
    (padVerifyLine_materials issuer) (padVerifyLine_identity issuer) (padVerifyLine_issuer issuer)
    (by rw [hmain]; exact fun _ _ h => h) padCodec_readsBack rfl hargs (by rw [hmain]) exAttestArgs_apart (.inl rfl)
  obtain ⟨_, chain, h2⟩ := h2
  obtain ⟨rfl, _⟩ := Prod.mk.inj (Except.ok.inj h2)
  refine (h3 padConfig [exIssuer] padCt padLog (padHonest _ _ _) ?_ ?_ hlen).trans (padCert_policy _ issuer hne)
  · exact padVerifyRequest issuer (hkept _ _ (by decide)) ⟨by decide, .beside rfl⟩ _
  · exact List.nodup_singleton _

end Sigstore.Props
