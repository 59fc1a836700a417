import Verif.Spec.CliVerify
import Verif.Props.Tuf
import Verif.Props.Bundle
import Verif.Props.VerificationExamples

/-!
# C44, C45, C53, C58, C69: `sigstore verify`
-/

namespace Sigstore.Props

open Sigstore.Trust Sigstore.LogEntry Sigstore.Dsse Sigstore.Cli Sigstore.Tuf Sigstore.Spec

/-! ## C45 -/

theorem hexVal_cases {c : Char} {n : Nat} (h : hexVal c = some n) : HexDigit c n := by
  unfold hexVal at h
  dsimp only at h
  split at h
  · rename_i hc
    have hn : n = c.toNat - 48 := (Option.some.inj h).symm
    have hlt : n < 10 := by omega
    have e : c = "0123456789".toList.get ⟨n, hlt⟩ := by
      have hc' : c = Char.ofNat (48 + n) := by rw [hn, show 48 + (c.toNat - 48) = c.toNat by omega, Char.ofNat_toNat]
      rw [hc']
      clear * - hlt
      revert hlt n; decide
    rw [e]
    exact HexDigit.digit ⟨n, hlt⟩
  · split at h
    · rename_i hc
      have hn : n = c.toNat - 87 := (Option.some.inj h).symm
      obtain ⟨k, rfl⟩ : ∃ k, n = 10 + k := ⟨n - 10, by omega⟩
      have hlt : k < 6 := by omega
      have e : c = "abcdef".toList.get ⟨k, hlt⟩ := by
        have hc' : c = Char.ofNat (97 + k) := by rw [show 97 + k = c.toNat by omega, Char.ofNat_toNat]
        rw [hc']
        clear * - hlt
        revert hlt k; decide
      rw [e]
      exact HexDigit.lower ⟨k, hlt⟩
    · split at h
      · rename_i hc
        have hn : n = c.toNat - 55 := (Option.some.inj h).symm
        obtain ⟨k, rfl⟩ : ∃ k, n = 10 + k := ⟨n - 10, by omega⟩
        have hlt : k < 6 := by omega
        have e : c = "ABCDEF".toList.get ⟨k, hlt⟩ := by
          have hc' : c = Char.ofNat (65 + k) := by rw [show 65 + k = c.toNat by omega, Char.ofNat_toNat]
          rw [hc']
          clear * - hlt
          revert hlt k; decide
        rw [e]
        exact HexDigit.upper ⟨k, hlt⟩
      · simp at h

theorem hexVal_iff (c : Char) (n : Nat) : hexVal c = some n ↔ HexDigit c n := by
  refine ⟨hexVal_cases, ?_⟩
  rintro (⟨i⟩ | ⟨i⟩ | ⟨i⟩)
  · revert i; decide
  · revert i; decide
  · revert i; decide

theorem blank_iff (c : Char) : isAsciiSpace c = true ↔ c ∈ " \t\n\x0b\x0c\r".toList := by
  constructor
  · intro h
    unfold isAsciiSpace at h
    have h' : c.toNat = 32 ∨ (9 ≤ c.toNat ∧ c.toNat ≤ 13) := by simpa using h
    have : c.toNat = 32 ∨ c.toNat = 9 ∨ c.toNat = 10 ∨ c.toNat = 11 ∨ c.toNat = 12 ∨ c.toNat = 13 := by omega
    have hc : c = Char.ofNat c.toNat := (Char.ofNat_toNat c).symm
    rcases this with h | h | h | h | h | h <;> rw [h] at hc <;> subst hc <;> decide
  · intro h
    have h' : c = ' ' ∨ c = '\t' ∨ c = '\n' ∨ c = '\x0b' ∨ c = '\x0c' ∨ c = '\r' := by simpa using h
    rcases h' with rfl | rfl | rfl | rfl | rfl | rfl <;> decide

theorem hexDigit_not_blank {c : Char} {n : Nat} (h : HexDigit c n) : isAsciiSpace c = false := by
  rcases h with ⟨i⟩ | ⟨i⟩ | ⟨i⟩
  · revert i; decide
  · revert i; decide
  · revert i; decide

/-- Python's `bytes.fromhex` -/
theorem hexDecode_iff : ∀ (s : Str) (d : Bytes), hexDecode s = some d ↔ HexText s d := by
  intro s
  induction s using hexDecode.induct with
  | case1 =>
    intro d
    rw [hexDecode]
    constructor
    · rintro h; rw [← Option.some.inj h]; exact .nil
    · rintro ⟨⟩; rfl
  | case2 c hc =>
    intro d
    rw [hexDecode, if_pos hc]
    constructor
    · rintro h; rw [← Option.some.inj h]; exact .blank ((blank_iff c).1 hc) .nil
    · rintro (_ | ⟨_, ⟨⟩⟩); rfl
  | case3 c hc =>
    intro d
    rw [hexDecode, if_neg hc]
    constructor
    · simp
    · rintro (_ | ⟨hb, _⟩); exact absurd ((blank_iff c).2 hb) hc
  | case4 c e rest hc ih =>
    intro d
    rw [hexDecode, if_pos hc, ih]
    constructor
    · exact fun h => .blank ((blank_iff c).1 hc) h
    · intro h
      cases h with
      | blank _ h => exact h
      | byte h1 _ _ => rw [hexDigit_not_blank h1] at hc; simp at hc
  | case5 c e rest hc a b hb ha ih =>
    intro d
    rw [hexDecode, if_neg hc, ha, hb]
    dsimp only
    constructor
    · intro h
      rw [Option.map_eq_some_iff] at h
      obtain ⟨d', hd, rfl⟩ := h
      exact .byte ((hexVal_iff _ _).1 ha) ((hexVal_iff _ _).1 hb) ((ih _).1 hd)
    · intro h
      cases h with
      | blank hb' _ => exact absurd ((blank_iff c).2 hb') hc
      | byte h1 h2 h3 =>
        rw [← hexVal_iff, ha] at h1
        rw [← hexVal_iff, hb] at h2
        rw [← Option.some.inj h1, ← Option.some.inj h2, (ih _).2 h3]
        rfl
  | case6 c e rest hc hne =>
    intro d
    rw [hexDecode, if_neg hc]
    constructor
    · intro h
      cases ha : hexVal c with
      | none => rw [ha] at h; simp at h
      | some a =>
        cases hb : hexVal e with
        | none => rw [ha, hb] at h; simp at h
        | some b => exact absurd hb (hne a b ha)
    · intro h
      cases h with
      | blank hb' _ => exact absurd ((blank_iff c).2 hb') hc
      | byte h1 h2 h3 => exact absurd ((hexVal_iff _ _).2 h2) (hne _ _ ((hexVal_iff _ _).2 h1))

theorem digestArg_iff (arg : Str) (d : Bytes) :
    DigestArg arg d ↔ arg.take 6 = "sha256".toList ∧ hexDecode (arg.drop 7) = some d ∧ d.length = 32 := by
  constructor
  · rintro ⟨c, s, rfl, h1, h2⟩
    exact ⟨rfl, (hexDecode_iff _ _).2 h1, h2⟩
  · rintro ⟨h1, h2, h3⟩
    have e : arg = "sha256".toList ++ arg.drop 6 := by rw [← h1, List.take_append_drop]
    cases hd : arg.drop 6 with
    | nil =>
      have : arg.drop 7 = [] := by
        rw [show (7 : Nat) = 6 + 1 from rfl, ← List.drop_drop, hd]; rfl
      rw [this] at h2
      have hd' : [] = d := Option.some.inj h2
      subst hd'
      simp at h3
    | cons c s =>
      rw [hd] at e
      refine ⟨c, s, e, ?_, h3⟩
      have : arg.drop 7 = s := by
        rw [show (7 : Nat) = 6 + 1 from rfl, ← List.drop_drop, hd]; rfl
      rw [this] at h2
      exact (hexDecode_iff _ _).1 h2

/-- **C45** (what the code does) An argument stands for the file of that name, if there is one; otherwise for a digest, if it
is `sha256`, one arbitrary character, and hexadecimal text for 32 bytes, possibly with blanks; otherwise for nothing. -/
theorem C45_argument_iff (fs : Fs) (arg : Str) (i : VerifyInput) : fileOrDigest fs arg = .ok i ↔ ArgDenotes fs arg i := by
  unfold fileOrDigest
  constructor
  · intro h
    split at h
    · rename_i hf
      rw [← Except.ok.inj h]
      exact .file hf
    · rename_i hf
      rw [Bool.not_eq_true] at hf
      split at h
      · rename_i hp
        split at h
        · simp at h
        · rename_i d hd
          split at h
          · simp at h
          · rename_i hl
            rw [← Except.ok.inj h]
            exact .digest hf ((digestArg_iff _ _).2 ⟨hp, hd, Classical.not_not.1 hl⟩)
      · simp at h
  · rintro (⟨hf⟩ | ⟨hf, hd⟩)
    · rw [if_pos hf]
    · obtain ⟨h1, h2, h3⟩ := (digestArg_iff _ _).1 hd
      rw [hf]
      simp only [Bool.false_eq_true, if_false]
      rw [if_pos h1, h2]
      dsimp only
      rw [if_neg (fun h => h h3)]

/-- an argument stands for at most one input -/
theorem argDenotes_unique {fs : Fs} {arg : Str} {i j : VerifyInput} (hi : ArgDenotes fs arg i) (hj : ArgDenotes fs arg j) : i = j := by
  rw [← C45_argument_iff] at hi hj
  rw [hi] at hj
  exact Except.ok.inj hj

theorem hexText_hexEncode (d : Bytes) : HexText (hexEncode d) d := (hexDecode_iff _ _).1 (hexDecode_hexEncode d)

/-- **C45** (negation) The statement is false: instead of the colon any character is accepted, and blanks are accepted between
the digits. -/
theorem C45_not_exact :
    (∀ (fs : Fs) (c : Char) (d : Bytes), d.length = 32 →
      fs.isFile (Path.ofStr ("sha256".toList ++ c :: hexEncode d)) = false →
      fileOrDigest fs ("sha256".toList ++ c :: hexEncode d) = .ok (.digest ⟨.sha2_256, d⟩)) ∧
    (∀ (fs : Fs) (d e : Bytes), (d ++ e).length = 32 →
      fs.isFile (Path.ofStr ("sha256:".toList ++ hexEncode d ++ " ".toList ++ hexEncode e)) = false →
      fileOrDigest fs ("sha256:".toList ++ hexEncode d ++ " ".toList ++ hexEncode e) = .ok (.digest ⟨.sha2_256, d ++ e⟩)) := by
  refine ⟨fun fs c d hd hf => ?_, fun fs d e hd hf => ?_⟩
  · rw [C45_argument_iff]
    exact .digest hf ⟨c, _, rfl, hexText_hexEncode d, hd⟩
  · rw [C45_argument_iff]
    refine .digest hf ⟨':', hexEncode d ++ " ".toList ++ hexEncode e, ?_, ?_, hd⟩
    · simp
    · clear hd hf
      induction d with
      | nil => exact .blank (by decide) (hexText_hexEncode e)
      | cons b d ih =>
        have h := hexText_hexEncode [b]
        cases h with
        | blank hb _ =>
          have := (blank_iff _).2 hb
          rw [isAsciiSpace_hexDigit _ (by have := b.toNat_lt; omega)] at this
          simp at this
        | byte h1 h2 h3 => exact .byte h1 h2 ih

/-- **C45** (what does hold) `sha256:` with 64 hexadecimal digits is accepted, unless a file has that name, and stands for
exactly those bytes; conversely an accepted argument that names no file and has no blanks is `sha256`, one character and 64
hexadecimal digits of the digest, read pairwise.  Missing: the character need not be a colon, and blanks are ignored. -/
theorem C45_digest_partial (fs : Fs) (arg : Str) (hf : fs.isFile (Path.ofStr arg) = false) :
    (∀ s d, arg = "sha256:".toList ++ s → s.length = 64 → HexText s d → d.length = 32 →
      fileOrDigest fs arg = .ok (.digest ⟨.sha2_256, d⟩)) ∧
    (∀ i, fileOrDigest fs arg = .ok i → (∀ c ∈ arg.drop 7, isAsciiSpace c = false) →
      ∃ c s d, arg = "sha256".toList ++ c :: s ∧ s.length = 64 ∧ HexText s d ∧ i = .digest ⟨.sha2_256, d⟩ ∧
        s.map Char.toLower = hexEncode d) := by
  constructor
  · rintro s d rfl _ h1 h2
    rw [C45_argument_iff]
    exact .digest hf ⟨':', s, rfl, h1, h2⟩
  · intro i hi hb
    rw [C45_argument_iff] at hi
    cases hi with
    | file h => rw [hf] at h; simp at h
    | digest _ hd =>
      obtain ⟨c, s, rfl, h1, h2⟩ := hd
      have hb' : ∀ c ∈ s, isAsciiSpace c = false := hb
      clear hb hf
      have key : ∀ (s : Str) (d : Bytes), HexText s d → (∀ c ∈ s, isAsciiSpace c = false) →
          s.length = 2 * d.length ∧ s.map Char.toLower = hexEncode d := by
        intro s d h
        induction h with
        | nil => intro _; exact ⟨rfl, rfl⟩
        | blank hc _ _ =>
          rename_i c s d _ _
          intro hb
          have hx := hb c (by simp)
          rw [(blank_iff _).2 hc] at hx
          simp at hx
        | byte h1 h2 _ ih =>
          rename_i c1 c2 m n s d _
          intro hb
          obtain ⟨ih1, ih2⟩ := ih fun c hc => hb c (by simp [hc])
          have lower : ∀ {c : Char} {n : Nat}, HexDigit c n → n < 16 ∧ c.toLower = hexDigit n := by
            rintro c n (⟨i⟩ | ⟨i⟩ | ⟨i⟩) <;> revert i <;> decide
          obtain ⟨l1, l2⟩ := lower h1
          obtain ⟨l3, l4⟩ := lower h2
          refine ⟨by simp only [List.length_cons, ih1]; omega, ?_⟩
          have hm : (UInt8.ofNat (16 * m + n)).toNat = 16 * m + n := toNat_ofNat8 (by omega)
          rw [hexEncode, hm, List.map_cons, List.map_cons, ih2, l2, l4,
            show (16 * m + n) / 16 = m by omega, show (16 * m + n) % 16 = n by omega]
      obtain ⟨k1, k2⟩ := key s _ h1 hb'
      exact ⟨c, s, _, rfl, by rw [k1, h2], h1, rfl, k2⟩

/-- a digest with an underscore -/
example : fileOrDigest ⟨fun _ => false, fun _ => .error .osError⟩ ("sha256_".toList ++ hexEncode (List.replicate 32 171)) =
    .ok (.digest ⟨.sha2_256, List.replicate 32 171⟩) :=
  C45_not_exact.1 _ _ _ rfl rfl

/-! ## C58 -/

theorem trustSource_iff (args : TrustArgs) (s : TrustSource) : trustSource args = s ↔ Chosen args s := by
  unfold trustSource
  constructor
  · rintro rfl
    split
    · rename_i p hp; exact .explicitFile hp
    · rename_i hp
      split
      · rename_i c cs hi; exact .custom hp hi (by simp)
      · rename_i hi
        have hi' : args.instance_ = none ∨ args.instance_ = some [] := by
          rcases hx : args.instance_ with _ | (_ | ⟨c, cs⟩)
          · exact .inl rfl
          · exact .inr rfl
          · exact absurd hx (hi c cs)
        split
        · rename_i hs; exact .staging hp hi' hs
        · rename_i hs; exact .production hp hi' (by simpa using hs)
  · rintro (⟨hp⟩ | ⟨hp, hi, hne⟩ | ⟨hp, hi, hs⟩ | ⟨hp, hi, hs⟩)
    · rw [hp]
    · rw [hp, hi]
      rename_i url
      cases url with
      | nil => exact absurd rfl hne
      | cons c cs => rfl
    · rw [hp, hs]
      rcases hi with hi | hi <;> rw [hi] <;> rfl
    · rw [hp, hs]
      rcases hi with hi | hi <;> rw [hi] <;> rfl

/-- **C58** Every combination of options selects exactly one source: an explicit configuration first, then a custom instance
(unless its URL is empty), then staging, then production. -/
theorem C58_one_source (args : TrustArgs) : ∃! s, Chosen args s :=
  ⟨trustSource args, (trustSource_iff _ _).1 rfl, fun _ h => ((trustSource_iff _ _).2 h).symm⟩

/-- **C58** The configuration is the one of the selected source, and the requested Rekor version (also when there is none)
applies to it.  A configuration file is used as it is, whatever its media type, without asking TUF; otherwise TUF is asked
about the selected repository and no other, with the requested mode. -/
theorem C58_config_iff (fs : Fs) (env : Tuf.Env) (parsers : TrustParsers) (args : TrustArgs) (w w' : Tuf.World)
    (c : LoadedConfig) :
    getTrustConfig fs env parsers args w = (.ok c, w') ↔ c.forceTlogVersion = args.rekorVersion ∧
      ((∃ p b mt, Chosen args (.file p) ∧ fs.read p = .ok b ∧
          parsers.config b = .ok ⟨mt, c.rootMediaType, c.root, c.signingConfig⟩ ∧ w' = w) ∨
       (∃ url tr sc, Chosen args (.tuf url) ∧ fromTuf env url args.offline none w = (.ok (tr, sc), w') ∧
          parsers.root tr = .ok (c.rootMediaType, c.root) ∧ parsers.signingConfig sc = .ok c.signingConfig)) := by
  unfold getTrustConfig
  cases hs : trustSource args with
  | file p =>
    have hch := (trustSource_iff _ _).1 hs
    have huniq : ∀ s, Chosen args s → s = .file p := fun s h => by rw [← (trustSource_iff _ _).2 h, hs]
    dsimp only
    constructor
    · intro h
      split at h
      · simp at h
      · rename_i b hb
        split at h
        · simp at h
        · rename_i m hm
          obtain ⟨h1, h2⟩ := Prod.mk.inj h
          have h1' := Except.ok.inj h1
          subst h1'
          exact ⟨rfl, .inl ⟨p, b, m.mediaType, hch, hb, hm, h2.symm⟩⟩
    · rintro ⟨h0, ⟨q, b, mt, hq, hb, hm, rfl⟩ | ⟨url, _, _, hq, _⟩⟩
      · obtain rfl : q = p := by simpa using huniq _ hq
        rw [hb]; dsimp only
        rw [hm]; dsimp only
        rw [← h0]
      · have := huniq _ hq; simp at this
  | tuf url =>
    have hch := (trustSource_iff _ _).1 hs
    have huniq : ∀ s, Chosen args s → s = .tuf url := fun s h => by rw [← (trustSource_iff _ _).2 h, hs]
    dsimp only
    constructor
    · intro h
      split at h
      · simp at h
      · rename_i tr sc w1 hf
        unfold parseTuf at h
        split at h
        · simp at h
        · rename_i mt root cfg hp
          obtain ⟨h1, h2⟩ := Prod.mk.inj h
          have h1' := Except.ok.inj h1
          subst h1'
          split at hp
          · simp at hp
          · rename_i mt' root' hr
            split at hp
            · simp at hp
            · rename_i cfg' hc
              have hp' := Except.ok.inj hp
              obtain ⟨rfl, hp''⟩ := Prod.mk.inj hp'
              obtain ⟨rfl, rfl⟩ := Prod.mk.inj hp''
              rw [h2] at hf
              exact ⟨rfl, .inr ⟨url, tr, sc, hch, hf, hr, hc⟩⟩
    · rintro ⟨h0, ⟨q, b, mt, hq, _⟩ | ⟨url', tr, sc, hq, hf, hr, hc⟩⟩
      · have := huniq _ hq; simp at this
      · obtain rfl : url' = url := by simpa using huniq _ hq
        rw [hf]
        dsimp only
        unfold parseTuf
        rw [hr]; dsimp only
        rw [hc]; dsimp only
        rw [← h0]

/-- an empty instance URL means production, also with a forced version -/
example : Chosen ⟨none, some [], false, true, some 2⟩ (.tuf "https://tuf-repo-cdn.sigstore.dev".toList) :=
  .production rfl (.inr rfl) rfl

end Sigstore.Props
