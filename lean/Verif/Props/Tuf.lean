import Verif.Spec.Tuf

/-!
# C47, C48: local state of TUF repositories, and what is read from them
-/

namespace Sigstore.Props

open Sigstore.Tuf Sigstore.Spec

/-! ## C47: directory names -/

theorem ofNat_toNat_ascii {n : Nat} (h : n < 128) : (Char.ofNat n).toNat = n := by
  have hv : n.isValidChar := Or.inl (by omega)
  unfold Char.ofNat
  rw [dif_pos hv]
  rfl

theorem upperHexDigit_toNat {n : Nat} (h : n < 16) : (upperHexDigit n).toNat = if n < 10 then 48 + n else 55 + n := by
  unfold upperHexDigit
  split <;> rw [ofNat_toNat_ascii (by omega)]

theorem upperHexDigit_inj {m n : Nat} (hm : m < 16) (hn : n < 16) (h : upperHexDigit m = upperHexDigit n) : m = n := by
  have := congrArg Char.toNat h
  rw [upperHexDigit_toNat hm, upperHexDigit_toNat hn] at this
  split at this <;> split at this <;> omega

theorem alwaysSafe_bounds {b : UInt8} (h : alwaysSafe b = true) :
    b.toNat < 128 ∧ b.toNat ≠ 37 ∧ b.toNat ≠ 47 ∧ b.toNat ≠ 0 := by
  simp only [alwaysSafe, Bool.or_eq_true, Bool.and_eq_true, decide_eq_true_eq, beq_iff_eq] at h
  omega

theorem ofNat_ne_of_toNat {n m : Nat} (hn : n < 128) (hm : m < 128) (h : n ≠ m) : Char.ofNat n ≠ Char.ofNat m := by
  intro e
  have := congrArg Char.toNat e
  rw [ofNat_toNat_ascii hn, ofNat_toNat_ascii hm] at this
  exact h this

theorem uint8_lt (b : UInt8) : b.toNat < 256 := b.toNat_lt

/-- quoted bytes can be read back one at a time -/
theorem quoteByte_prefix (a b : UInt8) (x y : Str) (h : quoteByte a ++ x = quoteByte b ++ y) : a = b ∧ x = y := by
  have ha := uint8_lt a
  have hb := uint8_lt b
  have pct : ('%' : Char) = Char.ofNat 37 := by decide
  unfold quoteByte at h
  split at h <;> split at h
  · rename_i h1 h2
    obtain ⟨a1, _⟩ := alwaysSafe_bounds h1
    obtain ⟨b1, _⟩ := alwaysSafe_bounds h2
    simp only [List.cons_append, List.nil_append, List.cons.injEq] at h
    have := congrArg Char.toNat h.1
    rw [ofNat_toNat_ascii a1, ofNat_toNat_ascii b1] at this
    exact ⟨UInt8.toNat_inj.1 this, h.2⟩
  · rename_i h1 h2
    obtain ⟨a1, a2, _⟩ := alwaysSafe_bounds h1
    simp only [List.cons_append, List.nil_append, List.cons.injEq] at h
    rw [pct] at h
    exact absurd h.1 (ofNat_ne_of_toNat a1 (by omega) a2)
  · rename_i h1 h2
    obtain ⟨b1, b2, _⟩ := alwaysSafe_bounds h2
    simp only [List.cons_append, List.nil_append, List.cons.injEq] at h
    rw [pct] at h
    exact absurd h.1.symm (ofNat_ne_of_toNat b1 (by omega) b2)
  · simp only [List.cons_append, List.nil_append, List.cons.injEq, true_and] at h
    obtain ⟨e1, e2, e3⟩ := h
    have e1 := upperHexDigit_inj (by omega) (by omega) e1
    have e2 := upperHexDigit_inj (by omega) (by omega) e2
    exact ⟨UInt8.toNat_inj.1 (by omega), e3⟩

theorem quoteByte_ne_nil (b : UInt8) : quoteByte b ≠ [] := by unfold quoteByte; split <;> simp

theorem quoteBytes_injective : ∀ a b : Bytes, a.flatMap quoteByte = b.flatMap quoteByte → a = b := by
  intro a
  induction a with
  | nil =>
    intro b h
    cases b with
    | nil => rfl
    | cons c b =>
      rw [List.flatMap_nil, List.flatMap_cons] at h
      exact absurd (List.append_eq_nil_iff.1 h.symm).1 (quoteByte_ne_nil c)
  | cons c a ih =>
    intro b h
    cases b with
    | nil =>
      rw [List.flatMap_nil, List.flatMap_cons] at h
      exact absurd (List.append_eq_nil_iff.1 h).1 (quoteByte_ne_nil c)
    | cons d b =>
      rw [List.flatMap_cons, List.flatMap_cons] at h
      obtain ⟨rfl, h'⟩ := quoteByte_prefix _ _ _ _ h
      rw [ih b h']

/-- **C47** `quote` keeps letters, digits and `_.-~`, and writes every other byte as `%` with two hexadecimal digits. -/
theorem C47_quote_byte (b : UInt8) :
    quoteByte b =
      if Char.ofNat b.toNat ∈ "ABCDEFGHIJKLMNOPQRSTUVWXYZabcdefghijklmnopqrstuvwxyz0123456789_.-~".toList then [Char.ofNat b.toNat]
      else ['%', "0123456789ABCDEF".toList.getD (b.toNat / 16) ' ', "0123456789ABCDEF".toList.getD (b.toNat % 16) ' '] := by
  have key : ∀ i : Fin 256, quoteByte (UInt8.ofNat i) =
      if Char.ofNat (UInt8.ofNat i).toNat ∈ "ABCDEFGHIJKLMNOPQRSTUVWXYZabcdefghijklmnopqrstuvwxyz0123456789_.-~".toList then
        [Char.ofNat (UInt8.ofNat i).toNat]
      else ['%', "0123456789ABCDEF".toList.getD ((UInt8.ofNat i).toNat / 16) ' ',
        "0123456789ABCDEF".toList.getD ((UInt8.ofNat i).toNat % 16) ' '] := by decide +kernel
  have h := key ⟨b.toNat, b.toNat_lt⟩
  rwa [UInt8.ofNat_toNat] at h

/-- **C47** The two instances have the directories of the package. -/
theorem C47_embedded_names :
    quote "https://tuf-repo-cdn.sigstore.dev".toList = "https%3A%2F%2Ftuf-repo-cdn.sigstore.dev".toList ∧
    quote "https://tuf-repo-cdn.sigstage.dev".toList = "https%3A%2F%2Ftuf-repo-cdn.sigstage.dev".toList := by
  constructor <;> decide +kernel

/-- the bytes that are not escaped are the unreserved characters -/
theorem alwaysSafe_iff (b : UInt8) : alwaysSafe b = true ↔ Char.ofNat b.toNat ∈ unreserved := by
  have h : ∀ n : Fin 256, alwaysSafe (UInt8.ofNat n) = true ↔ Char.ofNat n ∈ unreserved := by decide +kernel
  have := h ⟨b.toNat, b.toNat_lt⟩
  simpa using this

/-- **C47** An unreserved character is its own quotation; any other one becomes `%XX` for each byte of its encoding. -/
theorem C47_quote_unreserved (c : Char) (rest : Str) :
    quote (c :: rest) = (if c ∈ unreserved then [c] else
      (utf8 [c]).flatMap fun b => ['%', upperHexDigit (b.toNat / 16), upperHexDigit (b.toNat % 16)]) ++ quote rest := by
  have hcons : quote (c :: rest) = quote [c] ++ quote rest := by simp [quote, utf8]
  rw [hcons]
  congr 1
  unfold quote
  by_cases hc : c.toNat < 128
  · have h1 : utf8 [c] = [UInt8.ofNat c.toNat] := by
      simp [utf8, utf8Char, hc]
    have hn : (UInt8.ofNat c.toNat).toNat = c.toNat := by
      rw [UInt8.toNat_ofNat']; omega
    have hs := alwaysSafe_iff (UInt8.ofNat c.toNat)
    rw [hn, Char.ofNat_toNat] at hs
    rw [h1, List.flatMap_singleton, quoteByte, hn, Char.ofNat_toNat, List.flatMap_singleton, hn]
    by_cases h : c ∈ unreserved
    · rw [if_pos h, if_pos (hs.2 h)]
    · rw [if_neg h, if_neg (fun h' => h (hs.1 h'))]
  · have h : c ∉ unreserved := by
      intro hm
      have : ∀ x ∈ unreserved, x.toNat < 128 := by decide
      exact hc (this c hm)
    rw [if_neg h]
    have hb : ∀ b ∈ utf8 [c], 128 ≤ b.toNat := by
      have hl : c.toNat < 1114112 := by
        rcases c.valid with h | ⟨-, h⟩
        · exact Nat.lt_trans h (by decide)
        · exact h
      intro b hb
      simp only [utf8, List.flatMap_cons, List.flatMap_nil, List.append_nil, utf8Char] at hb
      rw [if_neg hc] at hb
      split at hb
      · simp only [List.mem_cons, List.not_mem_nil, or_false] at hb
        rcases hb with rfl | rfl <;> rw [UInt8.toNat_ofNat'] <;> omega
      · split at hb
        · simp only [List.mem_cons, List.not_mem_nil, or_false] at hb
          rcases hb with rfl | rfl | rfl <;> rw [UInt8.toNat_ofNat'] <;> omega
        · simp only [List.mem_cons, List.not_mem_nil, or_false] at hb
          rcases hb with rfl | rfl | rfl | rfl <;> rw [UInt8.toNat_ofNat'] <;> omega
    have key : ∀ l : Bytes, (∀ b ∈ l, 128 ≤ b.toNat) →
        l.flatMap quoteByte = l.flatMap fun b => ['%', upperHexDigit (b.toNat / 16), upperHexDigit (b.toNat % 16)] := by
      intro l
      induction l with
      | nil => exact fun _ => rfl
      | cons b l ih =>
        intro hl
        rw [List.flatMap_cons, List.flatMap_cons, ih fun x hx => hl x (List.mem_cons_of_mem _ hx)]
        congr 1
        unfold quoteByte
        rw [if_neg]
        intro h
        have := (alwaysSafe_bounds h).1
        have := hl b List.mem_cons_self
        omega
    exact key _ hb

/-- a name with reserved, unreserved and other characters -/
example : quote "https://a-b.c_d~/é".toList = "https%3A%2F%2Fa-b.c_d~%2F%C3%A9".toList := by decide +kernel

/-- **C47** Different URLs have different quoted names. -/
theorem C47_quote_injective : Function.Injective quote := by
  intro s t h
  exact utf8_injective (quoteBytes_injective _ _ h)

theorem quote_no_slash (s : Str) : '/' ∉ quote s ∧ Char.ofNat 0 ∉ quote s := by
  have key : ∀ c : Nat, (c = 47 ∨ c = 0) → ∀ b : UInt8, Char.ofNat c ∉ quoteByte b := by
    intro c hc b hm
    have hb := uint8_lt b
    unfold quoteByte at hm
    have hhex : ∀ n, n < 16 → Char.ofNat c ≠ upperHexDigit n := by
      intro n hn e
      have := congrArg Char.toNat e
      rw [ofNat_toNat_ascii (by omega), upperHexDigit_toNat hn] at this
      split at this <;> omega
    split at hm
    · rename_i h1
      obtain ⟨a1, a2, a3, a4⟩ := alwaysSafe_bounds h1
      simp only [List.mem_singleton] at hm
      exact ofNat_ne_of_toNat (by omega) a1 (by omega) hm
    · simp only [List.mem_cons, List.not_mem_nil, or_false] at hm
      rcases hm with h | h | h
      · have pct : ('%' : Char) = Char.ofNat 37 := by decide
        rw [pct] at h
        exact ofNat_ne_of_toNat (by omega) (by omega) (by omega) h
      · exact hhex _ (by omega) h
      · exact hhex _ (by omega) h
  have sl : ('/' : Char) = Char.ofNat 47 := by decide
  rw [sl]
  constructor
  · intro h
    obtain ⟨b, _, hb⟩ := List.mem_flatMap.1 h
    exact key 47 (.inl rfl) b hb
  · intro h
    obtain ⟨b, _, hb⟩ := List.mem_flatMap.1 h
    exact key 0 (.inr rfl) b hb

theorem quote_nil : quote [] = [] := rfl
theorem quote_dot : quote ".".toList = ".".toList := by decide
theorem quote_dotdot : quote "..".toList = "..".toList := by decide

theorem getDirs_eq (d c : Path) (url : Str) :
    getDirs d c url = ((d.join "tuf".toList).join (quote url), (c.join "tuf".toList).join (quote url)) := rfl

theorem join_tuf (d : Path) : d.join "tuf".toList = ⟨d.absolute, d.parts ++ ["tuf".toList]⟩ := by
  rw [d.join_component (by decide), if_neg (by decide)]

theorem join_quote_eq_iff (d : Path) (u v : Str) :
    d.join (quote u) = d.join (quote v) ↔ u = v ∨ (u = [] ∧ v = ".".toList) ∨ (u = ".".toList ∧ v = []) := by
  rw [d.join_component (quote_no_slash u).1, d.join_component (quote_no_slash v).1]
  have key : ∀ w, (quote w = [] ∨ quote w = ['.']) ↔ (w = [] ∨ w = ['.']) := by
    intro w
    constructor
    · rintro (h | h)
      · exact .inl (C47_quote_injective (h.trans quote_nil.symm))
      · exact .inr (C47_quote_injective (h.trans quote_dot.symm))
    · rintro (rfl | rfl)
      · exact .inl rfl
      · exact .inr quote_dot
  show _ ↔ u = v ∨ (u = [] ∧ v = ['.']) ∨ (u = ['.'] ∧ v = [])
  simp only [key]
  have hne : ∀ (p : Path) (s : Str), p ≠ ⟨p.absolute, p.parts ++ [s]⟩ := by
    intro p s h
    have := congrArg (fun q : Path => q.parts.length) h
    simp at this
  by_cases hu : u = [] ∨ u = ['.']
  · rw [if_pos hu]
    by_cases hv : v = [] ∨ v = ['.']
    · rw [if_pos hv]
      simp only [true_iff]
      rcases hu with rfl | rfl <;> rcases hv with rfl | rfl
      · exact .inl rfl
      · exact .inr (.inl ⟨rfl, rfl⟩)
      · exact .inr (.inr ⟨rfl, rfl⟩)
      · exact .inl rfl
    · rw [if_neg hv]
      refine iff_of_false (hne d _) ?_
      rintro (rfl | ⟨_, rfl⟩ | ⟨_, rfl⟩)
      · exact hv hu
      · exact hv (.inr rfl)
      · exact hv (.inl rfl)
  · rw [if_neg hu]
    by_cases hv : v = [] ∨ v = ['.']
    · rw [if_pos hv]
      refine iff_of_false (fun h => hne d _ h.symm) ?_
      rintro (rfl | ⟨rfl, _⟩ | ⟨rfl, _⟩)
      · exact hu hv
      · exact hu (.inl rfl)
      · exact hu (.inr rfl)
    · rw [if_neg hv]
      constructor
      · intro h
        have h := congrArg Path.parts h
        simp only [List.append_cancel_left_eq, List.cons.injEq, and_true] at h
        exact .inl (C47_quote_injective h)
      · rintro (rfl | ⟨rfl, _⟩ | ⟨rfl, _⟩)
        · rfl
        · exact absurd (.inl rfl) hu
        · exact absurd (.inr rfl) hu

/-- the directories of an updater -/
theorem init_dirs {env : Env} {url : Str} {offline : Bool} {boot : Option (Py Bytes)} {w w' : World} {u : TrustUpdater}
    (h : TrustUpdater.init env url offline boot w = (.ok u, w')) :
    (u.metadataDir, u.targetsDir) = getDirs env.dataBase env.cacheBase (stripSlashes url) ∧ u.online = !offline ∧
      u.trustedRootPath = none ∧ u.signingConfigPath = none := by
  unfold TrustUpdater.init at h
  dsimp only at h
  cases offline with
  | true =>
    rw [if_pos rfl] at h
    cases h
    exact ⟨rfl, rfl, rfl, rfl⟩
  | false =>
    rw [if_neg (by decide)] at h
    split at h
    · simp at h
    · split at h
      · cases h
        exact ⟨rfl, rfl, rfl, rfl⟩
      · simp at h

/-- **C47** refuted for degenerate URLs: the empty URL (also `/`, `//`, ...) and `.` share their directories, and `..` leads
out of the directory for TUF repositories. -/
theorem C47_degenerate_urls (d c : Path) :
    getDirs d c (stripSlashes "//".toList) = getDirs d c (stripSlashes ".".toList) ∧
    stripSlashes "//".toList ≠ stripSlashes ".".toList ∧
    (getDirs d c (stripSlashes "..".toList)).1 = ⟨d.absolute, d.parts ++ ["tuf".toList, "..".toList]⟩ := by
  refine ⟨?_, by decide, ?_⟩
  · rw [getDirs_eq, getDirs_eq]
    have h : ∀ p : Path, p.join (quote (stripSlashes "//".toList)) = p.join (quote (stripSlashes ".".toList)) :=
      fun p => (join_quote_eq_iff p _ _).2 (.inr (.inl ⟨by decide, by decide⟩))
    rw [h, h]
  · rw [getDirs_eq, show stripSlashes "..".toList = "..".toList by decide, quote_dotdot, join_tuf,
      Path.join_component _ (by decide), if_neg (by decide)]
    simp

/-- **C47** (partial: excludes the URLs of `C47_degenerate_urls`) Two updaters share a directory exactly if their URLs agree
up to trailing slashes; the directory is an entry of `tuf`, below the user's data or cache directory. -/
theorem C47_dirs_partial (env : Env) (url url' : Str) (offline offline' : Bool) (boot boot' : Option (Py Bytes))
    (w w1 w' w1' : World) (u u' : TrustUpdater)
    (h : TrustUpdater.init env url offline boot w = (.ok u, w1))
    (h' : TrustUpdater.init env url' offline' boot' w' = (.ok u', w1'))
    (hne : stripSlashes url ≠ [] ∧ stripSlashes url ≠ ".".toList ∧ stripSlashes url ≠ "..".toList) :
    (u.metadataDir = u'.metadataDir ↔ stripSlashes url = stripSlashes url') ∧
    (u.targetsDir = u'.targetsDir ↔ stripSlashes url = stripSlashes url') ∧
    ∃ name, SingleComponent name ∧
      u.metadataDir = ⟨env.dataBase.absolute, env.dataBase.parts ++ ["tuf".toList, name]⟩ ∧
      u.targetsDir = ⟨env.cacheBase.absolute, env.cacheBase.parts ++ ["tuf".toList, name]⟩ := by
  obtain ⟨hd, _⟩ := init_dirs h
  obtain ⟨hd', _⟩ := init_dirs h'
  rw [getDirs_eq] at hd hd'
  obtain ⟨rfl1, rfl2⟩ := Prod.mk.inj hd
  obtain ⟨rfl1', rfl2'⟩ := Prod.mk.inj hd'
  rw [rfl1, rfl2, rfl1', rfl2', join_quote_eq_iff, join_quote_eq_iff]
  have hiff : ∀ v, (stripSlashes url = v ∨ (stripSlashes url = [] ∧ v = ".".toList) ∨
      (stripSlashes url = ".".toList ∧ v = [])) ↔ stripSlashes url = v := by
    intro v
    constructor
    · rintro (h | ⟨h, _⟩ | ⟨h, _⟩)
      · exact h
      · exact absurd h hne.1
      · exact absurd h hne.2.1
    · exact .inl
  refine ⟨hiff _, hiff _, quote (stripSlashes url), ⟨?_, ?_, ?_, quote_no_slash _⟩, ?_, ?_⟩
  · exact fun h => hne.1 (C47_quote_injective (h.trans quote_nil.symm))
  · exact fun h => hne.2.1 (C47_quote_injective (h.trans quote_dot.symm))
  · exact fun h => hne.2.2 (C47_quote_injective (h.trans quote_dotdot.symm))
  all_goals
    rw [join_tuf, Path.join_component _ (quote_no_slash _).1, if_neg]
    · simp
    · rintro (h | h)
      · exact hne.1 (C47_quote_injective (h.trans quote_nil.symm))
      · exact hne.2.1 (C47_quote_injective (h.trans quote_dot.symm))

example : quote defaultTufUrl = "https%3A%2F%2Ftuf-repo-cdn.sigstore.dev".toList := by decide

example : quote (stripSlashes "https://ex.org/ü//".toList) = "https%3A%2F%2Fex.org%2F%C3%BC".toList := by decide

/-! ## C48 -/

/-- what a cached artifact is after the cache was filled -/
def cachedOrEmbedded (env : Env) (url : Str) (w : World) (name : Str) : Option Bytes :=
  (w.files ((getDirs env.dataBase env.cacheBase url).2.join name)).or (env.embedded (quote url) name)

theorem populate_calls (env : Env) (url : Str) (dir : Path) (w : World) (a : Str) :
    (populate env url dir w a).calls = w.calls := by
  unfold populate
  dsimp only
  split
  · rfl
  · split <;> rfl

theorem populate_files (env : Env) (url : Str) (dir : Path) (w : World) (a : Str) (p : Path) :
    (populate env url dir w a).files p =
      if p = dir.join a then (w.files p).or (env.embedded (quote url) a) else w.files p := by
  unfold populate
  dsimp only
  by_cases hp : p = dir.join a
  · subst hp
    rw [if_pos rfl]
    split
    · rename_i b h; rw [h]; rfl
    · rename_i h
      split
      · rename_i b hb
        rw [World.write]
        dsimp only
        rw [if_pos rfl, h, hb]; rfl
      · rename_i hb
        rw [h, hb]; rfl
  · rw [if_neg hp]
    split
    · rfl
    · split
      · rw [World.write]
        dsimp only
        rw [if_neg hp]
      · rfl

theorem artifact_names_differ (dir : Path) : dir.join trustedRootName ≠ dir.join signingConfigName := by
  rw [dir.join_component (by decide), dir.join_component (by decide), if_neg (by decide), if_neg (by decide)]
  intro h
  have := congrArg Path.parts h
  simp only [List.append_cancel_left_eq, List.cons.injEq, and_true] at this
  exact absurd this (by decide)

/-- the world after the cache was filled -/
def filled (env : Env) (url : Str) (w : World) : World :=
  [trustedRootName, signingConfigName].foldl
    (populate env (stripSlashes url) (getDirs env.dataBase env.cacheBase (stripSlashes url)).2) w

theorem filled_calls (env : Env) (url : Str) (w : World) : (filled env url w).calls = w.calls := by
  simp only [filled, List.foldl_cons, List.foldl_nil, populate_calls]

theorem filled_files (env : Env) (url : Str) (w : World) (name : Str)
    (hn : name = trustedRootName ∨ name = signingConfigName) :
    (filled env url w).files ((getDirs env.dataBase env.cacheBase (stripSlashes url)).2.join name) =
      cachedOrEmbedded env (stripSlashes url) w name := by
  have hd := artifact_names_differ (getDirs env.dataBase env.cacheBase (stripSlashes url)).2
  simp only [filled, List.foldl_cons, List.foldl_nil]
  rcases hn with rfl | rfl
  · rw [populate_files, if_neg hd, populate_files, if_pos rfl]
    rfl
  · rw [populate_files, if_pos rfl, populate_files, if_neg (Ne.symm hd)]
    rfl

/-- **C48** Filling the cache never replaces a file, and adds only embedded data under the two artifact names in the
directory of the repository. -/
theorem C48_cache_kept (env : Env) (url : Str) (offline : Bool) (boot : Option (Py Bytes)) (w : World) (p : Path) :
    let w' := (TrustUpdater.init env url offline boot w).2
    (∀ b, w.files p = some b → w'.files p = some b) ∧
    (∀ b, w'.files p = some b → w.files p = some b ∨
      ∃ name, (name = "trusted_root.json".toList ∨ name = "signing_config.v0.2.json".toList) ∧
        p = (getDirs env.dataBase env.cacheBase (stripSlashes url)).2.join name ∧
        env.embedded (quote (stripSlashes url)) name = some b) := by
  rw [show "trusted_root.json".toList = trustedRootName from rfl, show "signing_config.v0.2.json".toList = signingConfigName from rfl]
  intro w'
  have hw : w'.files = (filled env url w).files := by
    show (TrustUpdater.init env url offline boot w).2.files = _
    unfold TrustUpdater.init
    dsimp only
    cases offline with
    | true => rw [if_pos rfl]; rfl
    | false =>
      rw [if_neg (by decide)]
      split
      · rfl
      · split <;> rfl
  rw [hw]
  simp only [filled, List.foldl_cons, List.foldl_nil, populate_files]
  constructor
  · intro b hb
    simp [hb]
  · intro b hb
    cases hp : w.files p with
    | some b' =>
      left
      simpa [hp] using hb
    | none =>
      right
      rw [hp] at hb
      by_cases h2 : p = (getDirs env.dataBase env.cacheBase (stripSlashes url)).2.join signingConfigName
      · have h1 : p ≠ (getDirs env.dataBase env.cacheBase (stripSlashes url)).2.join trustedRootName := by
          rw [h2]; exact (artifact_names_differ _).symm
        rw [if_pos h2, if_neg h1] at hb
        exact ⟨signingConfigName, .inr rfl, h2, hb⟩
      · rw [if_neg h2] at hb
        split at hb
        · rename_i h1
          exact ⟨trustedRootName, .inl rfl, h1, hb⟩
        · cases hb

/-- **C48** Offline: the library is never called, and what is returned are the cached files, else the embedded ones. -/
theorem C48_offline (env : Env) (url : Str) (boot : Option (Py Bytes)) (w : World) :
    (fromTuf env url true boot w).2.calls = w.calls ∧
    (∀ tr sc, (fromTuf env url true boot w).1 = .ok (tr, sc) ↔
      cachedOrEmbedded env (stripSlashes url) w "trusted_root.json".toList = some tr ∧
      cachedOrEmbedded env (stripSlashes url) w "signing_config.v0.2.json".toList = some sc) ∧
    ∀ e, (fromTuf env url true boot w).1 = .error e → e = .osError := by
  rw [show "trusted_root.json".toList = trustedRootName from rfl, show "signing_config.v0.2.json".toList = signingConfigName from rfl]
  have hi : TrustUpdater.init env url true boot w =
      (.ok ⟨stripSlashes url, (getDirs env.dataBase env.cacheBase (stripSlashes url)).1,
        (getDirs env.dataBase env.cacheBase (stripSlashes url)).2, false, none, none⟩, filled env url w) := by
    unfold TrustUpdater.init
    dsimp only
    rw [if_pos rfl]
    rfl
  unfold fromTuf
  rw [hi]
  dsimp only [TrustUpdater.getTrustedRootPath, TrustUpdater.getSigningConfigPath, TrustUpdater.targetPath]
  simp only [Bool.not_false, if_true]
  rw [readBytes, filled_files env url w trustedRootName (.inl rfl)]
  cases h1 : cachedOrEmbedded env (stripSlashes url) w trustedRootName with
  | none =>
    dsimp only
    refine ⟨filled_calls env url w, fun tr sc => ?_, fun e he => by cases he; rfl⟩
    simp
  | some b =>
    dsimp only
    rw [readBytes, filled_files env url w signingConfigName (.inr rfl)]
    cases h2 : cachedOrEmbedded env (stripSlashes url) w signingConfigName with
    | none =>
      dsimp only
      refine ⟨filled_calls env url w, fun tr sc => ?_, fun e he => by cases he; rfl⟩
      simp
    | some b' =>
      dsimp only
      refine ⟨filled_calls env url w, fun tr sc => ?_, fun e he => by cases he⟩
      simp

/-- the root metadata an online updater starts from: the embedded one, else the one given by the caller, else none -/
def bootstrapOf (env : Env) (url : Str) (boot : Option (Py Bytes)) : Py (Option Bytes) :=
  match env.embedded (quote (stripSlashes url)) "root.json".toList with
  | some b => .ok (some b)
  | none =>
    match boot with
    | some (.ok b) => .ok (some b)
    | some (.error e) => .error e
    | none => .ok none

theorem init_online (env : Env) (url : Str) (boot : Option (Py Bytes)) (w : World) :
    TrustUpdater.init env url false boot w =
      match bootstrapOf env url boot with
      | .error e => (.error e, filled env url w)
      | .ok root =>
        if env.library.refresh root then
          (.ok ⟨stripSlashes url, (getDirs env.dataBase env.cacheBase (stripSlashes url)).1,
            (getDirs env.dataBase env.cacheBase (stripSlashes url)).2, true, none, none⟩,
            (filled env url w).call (.refresh (stripSlashes url) root))
        else (.error .tuf, (filled env url w).call (.refresh (stripSlashes url) root)) := by
  unfold TrustUpdater.init
  dsimp only
  rw [if_neg (by decide)]
  rfl

theorem targetPath_online {env : Env} {Fits : TargetInfo → Bytes → Prop} (hc : TufContract env.library Fits)
    {u : TrustUpdater} (hu : u.online = true) {name : Str} {w w' : World} {p : Path}
    (h : u.targetPath env name w = (.ok p, w')) :
    ∃ info b, env.library.targetInfo name = .ok (some info) ∧ w'.files p = some b ∧ Fits info b ∧
      (w'.calls = w.calls ++ [.targetInfo name, .findCached info] ∨
       w'.calls = w.calls ++ [.targetInfo name, .findCached info, .download info]) := by
  unfold TrustUpdater.targetPath at h
  rw [hu] at h
  dsimp only [Bool.not_true] at h
  rw [if_neg (by decide)] at h
  split at h
  · simp at h
  · simp at h
  · rename_i info hinfo
    split at h
    · simp at h
    · rename_i path hf
      cases h
      obtain ⟨b, hb, hfit⟩ := hc.cached _ _ _ hf
      refine ⟨info, b, hinfo, hb, hfit, .inl ?_⟩
      simp [World.call]
    · split at h
      · simp at h
      · simp at h
      · rename_i path content hdl
        cases h
        refine ⟨info, content, hinfo, by simp [World.write], hc.downloaded _ _ _ hdl, .inr ?_⟩
        simp [World.call, World.write]

/-- **C48** Online: both files are targets listed in the metadata that the client library accepted in a refresh, which
started from the embedded root or, without one, from the caller's; the refresh comes before everything else. -/
theorem C48_online (env : Env) (Fits : TargetInfo → Bytes → Prop) (hc : TufContract env.library Fits) (url : Str)
    (boot : Option (Py Bytes)) (w w' : World) (tr sc : Bytes) (h : fromTuf env url false boot w = (.ok (tr, sc), w')) :
    ∃ root rest, bootstrapOf env url boot = .ok root ∧ env.library.refresh root = true ∧
      w'.calls = w.calls ++ .refresh (stripSlashes url) root :: rest ∧
      ListedTarget env.library Fits "trusted_root.json".toList tr ∧ ListedTarget env.library Fits "signing_config.v0.2.json".toList sc := by
  rw [show "trusted_root.json".toList = trustedRootName from rfl, show "signing_config.v0.2.json".toList = signingConfigName from rfl]
  unfold fromTuf at h
  rw [init_online] at h
  cases hb : bootstrapOf env url boot with
  | error e => rw [hb] at h; simp at h
  | ok root =>
    rw [hb] at h
    dsimp only at h
    cases hr : env.library.refresh root with
    | false => rw [hr, if_neg (by decide)] at h; simp at h
    | true =>
      rw [hr, if_pos rfl] at h
      dsimp only at h
      split at h
      · simp at h
      · rename_i trPath u1 w1 hg
        unfold TrustUpdater.getTrustedRootPath at hg
        dsimp only at hg
        split at hg
        · rename_i p1 w1' ht
          cases hg
          obtain ⟨info, b, hi, hfile, hfit, hcalls⟩ := targetPath_online hc rfl ht
          rw [readBytes, hfile] at h
          dsimp only at h
          split at h
          · simp at h
          · rename_i scPath u2 w2 hg2
            unfold TrustUpdater.getSigningConfigPath at hg2
            dsimp only at hg2
            split at hg2
            · rename_i p2 w2' ht2
              cases hg2
              obtain ⟨info2, b2, hi2, hfile2, hfit2, hcalls2⟩ := targetPath_online hc rfl ht2
              rw [readBytes, hfile2] at h
              cases h
              have hpre : ∃ rest, w'.calls = w.calls ++ .refresh (stripSlashes url) root :: rest := by
                rcases hcalls with h1 | h1 <;> rcases hcalls2 with h2 | h2 <;>
                  (rw [h2, h1]
                   simp only [World.call, filled_calls, List.append_assoc, List.cons_append, List.nil_append]
                   exact ⟨_, rfl⟩)
              obtain ⟨rest, hrest⟩ := hpre
              exact ⟨root, rest, rfl, hr, hrest, ⟨info, hi, hfit⟩, ⟨info2, hi2, hfit2⟩⟩
            · simp at hg2
        · simp at hg

/-- **C48** Once found, a path is returned again without asking the library. -/
theorem C48_remembered (env env' : Env) (u u' : TrustUpdater) (w w' w'' : World) (p : Path) :
    (u.getTrustedRootPath env w = (.ok p, u', w') → u'.getTrustedRootPath env' w'' = (.ok p, u', w'')) ∧
    (u.getSigningConfigPath env w = (.ok p, u', w') → u'.getSigningConfigPath env' w'' = (.ok p, u', w'')) := by
  constructor
  · intro h
    unfold TrustUpdater.getTrustedRootPath at h
    split at h
    · rename_i q hq
      cases h
      unfold TrustUpdater.getTrustedRootPath
      rw [hq]
    · split at h
      · cases h; rfl
      · simp at h
  · intro h
    unfold TrustUpdater.getSigningConfigPath at h
    split at h
    · rename_i q hq
      cases h
      unfold TrustUpdater.getSigningConfigPath
      rw [hq]
    · split at h
      · cases h; rfl
      · simp at h

theorem targetPath_errors {env : Env} {u : TrustUpdater} {name : Str} {w w' : World} {e : Exc}
    (hinfo : ∀ name e, env.library.targetInfo name ≠ .error e) (hfind : ∀ f i e, env.library.findCached f i ≠ .error e)
    (hdl : ∀ i e, env.library.download i ≠ .error (.other e)) (h : u.targetPath env name w = (.error e, w')) : e = .tuf := by
  unfold TrustUpdater.targetPath at h
  dsimp only at h
  split at h
  · simp at h
  · split at h
    · rename_i e' he; exact absurd he (hinfo _ _)
    · cases h; rfl
    · split at h
      · rename_i e' he; exact absurd he (hfind _ _ _)
      · simp at h
      · split at h
        · cases h; rfl
        · rename_i e' he; exact absurd he (hdl _ _)
        · simp at h

/-- **C48** (partial for the error class: excludes the exceptions of `C48_leaks`) If the caller's root can be read, and the
library raises only in `refresh`, or its own exceptions in `download_target`, then the only failure online is `TUFError`. -/
theorem C48_tuf_error_partial (env : Env) (Fits : TargetInfo → Bytes → Prop) (hc : TufContract env.library Fits)
    (url : Str) (boot : Option (Py Bytes)) (w w' : World) (e : Exc) (hboot : ∀ e, boot ≠ some (.error e))
    (hinfo : ∀ name e, env.library.targetInfo name ≠ .error e) (hfind : ∀ f i e, env.library.findCached f i ≠ .error e)
    (hdl : ∀ i e, env.library.download i ≠ .error (.other e))
    (h : fromTuf env url false boot w = (.error e, w')) : e = .tuf := by
  unfold fromTuf at h
  rw [init_online] at h
  cases hb : bootstrapOf env url boot with
  | error e' =>
    exfalso
    unfold bootstrapOf at hb
    split at hb
    · cases hb
    · split at hb
      · cases hb
      · rename_i e'' ; exact hboot _ rfl
      · cases hb
  | ok root =>
    rw [hb] at h
    dsimp only at h
    split at h
    · rename_i hrf
      split at hrf
      · simp at hrf
      · cases hrf; cases h; rfl
    · rename_i u w1 hrf
      split at hrf
      · cases hrf
        split at h
        · rename_i e1 u1 w1' hg
          cases h
          unfold TrustUpdater.getTrustedRootPath at hg
          dsimp only at hg
          split at hg
          · simp at hg
          · rename_i ht; cases hg; exact targetPath_errors hinfo hfind hdl ht
        · rename_i trPath u1 w1' hg
          unfold TrustUpdater.getTrustedRootPath at hg
          dsimp only at hg
          split at hg
          · rename_i ht
            cases hg
            obtain ⟨info, b, _, hfile, _⟩ := targetPath_online hc rfl ht
            rw [readBytes, hfile] at h
            dsimp only at h
            split at h
            · rename_i e2 u2 w2 hg2
              cases h
              unfold TrustUpdater.getSigningConfigPath at hg2
              dsimp only at hg2
              split at hg2
              · simp at hg2
              · rename_i ht2; cases hg2; exact targetPath_errors hinfo hfind hdl ht2
            · rename_i scPath u2 w2 hg2
              unfold TrustUpdater.getSigningConfigPath at hg2
              dsimp only at hg2
              split at hg2
              · rename_i ht2
                cases hg2
                obtain ⟨info2, b2, _, hfile2, _⟩ := targetPath_online hc rfl ht2
                rw [readBytes, hfile2] at h
                simp at h
              · simp at hg2
          · simp at hg
      · simp at hrf

/-- **C48** refuted for the error class: whatever `get_targetinfo` raises after a successful refresh (which may load further
metadata from the network), is not turned into `TUFError`. -/
theorem C48_leaks (env : Env) (url : Str) (boot : Option (Py Bytes)) (w : World) (root : Option Bytes) (e : Exc)
    (hb : bootstrapOf env url boot = .ok root) (hr : env.library.refresh root = true)
    (hi : env.library.targetInfo "trusted_root.json".toList = .error e) : (fromTuf env url false boot w).1 = .error e := by
  rw [show "trusted_root.json".toList = trustedRootName from rfl] at hi
  unfold fromTuf
  rw [init_online, hb]
  dsimp only
  rw [hr, if_pos rfl]
  dsimp only [TrustUpdater.getTrustedRootPath, TrustUpdater.targetPath]
  simp only [Bool.not_true, Bool.false_eq_true, if_false]
  rw [hi]

/-! ### Examples -/

/-- a library whose metadata lists both artifacts and that downloads them -/
def exTufLibrary : Library where
  refresh root := root == some [7]
  targetInfo name := .ok (if name = trustedRootName then some ⟨0⟩ else if name = signingConfigName then some ⟨1⟩ else none)
  findCached _ _ := .ok none
  download i := .ok (⟨true, ["t".toList, [Char.ofNat (48 + i.id)]]⟩, [UInt8.ofNat i.id])

def exTufEnv (lib : Library) : Env where
  dataBase := ⟨true, ["d".toList]⟩
  cacheBase := ⟨true, ["c".toList]⟩
  embedded dir name := if dir = quote defaultTufUrl ∧ name = rootName then some [7] else
    if dir = quote defaultTufUrl ∧ name = trustedRootName then some [1, 2] else none
  library := lib

def exTufWorld : World := ⟨fun p => if p.name = signingConfigName then some [9] else none, []⟩

example : TufContract exTufLibrary (fun i b => b = [UInt8.ofNat i.id]) where
  cached := by intro f i p h; cases h
  downloaded := by intro i p b h; cases h; rfl

/-- online -/
example : (fromTuf (exTufEnv exTufLibrary) "https://tuf-repo-cdn.sigstore.dev/".toList false none exTufWorld).1 = .ok ([0], [1]) := by
  decide

/-- offline: one file from the package, one from the cache -/
example : (fromTuf (exTufEnv exTufLibrary) defaultTufUrl true none exTufWorld).1 = .ok ([1, 2], [9]) := by decide

/-- a repository without embedded root needs the caller's -/
example : (fromTuf (exTufEnv exTufLibrary) "https://ex.org".toList false none exTufWorld).1 = .error .tuf ∧
    (fromTuf (exTufEnv exTufLibrary) "https://ex.org".toList false (some (.ok [7])) exTufWorld).1 = .ok ([0], [1]) := by decide

/-- `C48_leaks` applies -/
example : (fromTuf (exTufEnv { exTufLibrary with targetInfo := fun _ => .error (.other 1) }) defaultTufUrl false none exTufWorld).1
    = .error (.other 1) := C48_leaks _ _ _ _ (some [7]) _ (by decide) (by decide) rfl

end Sigstore.Props
