import Verif.Props.Argv
import Verif.Props.CliMainExamples

/-!
# C116: command lines that mean what they say whatever the values are
-/

namespace Sigstore.Props

open Sigstore.Trust Sigstore.LogEntry Sigstore.Dsse Sigstore.Signing Sigstore.Cli Sigstore.Spec Sigstore.Args

/-- no name of one vocabulary is ambiguous in the other -/
def Vocabulary.Apart (inner outer : Vocabulary) : Prop :=
  ∀ n ∈ inner.names, n ∈ outer.names ∨ ∀ m ∈ outer.names, ∀ k ∈ outer.names, n <+: m → n <+: k → m = k

theorem apart_command (c : Command) : Vocabulary.Apart (vocabulary c) vocabularyTop ∧
    Vocabulary.Apart (vocabulary c) vocabularyMiddle := by
  unfold Vocabulary.Apart
  cases c <;> exact ⟨by decide +kernel, by decide +kernel⟩

theorem apart_middle : Vocabulary.Apart vocabularyMiddle vocabularyTop := by
  unfold Vocabulary.Apart
  decide +kernel

section
variable {opts : List Opt} {d : Documented} {help : List String} (hs : Speaks opts ⟨d.values, d.flags, help⟩)
include hs

theorem written_name {o : Occ} (ho : d.Allows o) : o.name ∈ (⟨d.values, d.flags, help⟩ : Vocabulary).names ∧ beforeEq (writeOcc o) = o.name ∧
    writeOcc o ≠ "--".toList := by
  have hn : o.name ∈ (⟨d.values, d.flags, help⟩ : Vocabulary).names := by
    unfold Vocabulary.names
    rw [List.map_append, List.map_append]
    rcases (fits_iff d help o).2 ho with ⟨h, _⟩ | ⟨h, _⟩
    · exact List.mem_append_left _ (List.mem_append_left _ h)
    · exact List.mem_append_left _ (List.mem_append_right _ h)
  have he := hs.noEq _ hn
  refine ⟨hn, ?_, ?_⟩
  · unfold writeOcc
    cases o.value with
    | none => exact beforeEq_none he
    | some x => exact beforeEq_some he
  · unfold writeOcc
    cases o.value with
    | none => exact fun h => dashes_not_name hs (h ▸ hn)
    | some x =>
      intro h
      have : '=' ∈ "--".toList := h ▸ (by simp)
      exact absurd this (by decide)

theorem written_options (negative : Str → Bool) : ∀ (occs : List Occ), (∀ o ∈ occs, d.Allows o) →
    OptionWords negative ⟨d.values, d.flags, help⟩ (occs.map writeOcc) occs
  | [], _ => .nil
  | o :: occs, h => by
    have ih := written_options negative occs fun o ho => h o (List.mem_cons_of_mem _ ho)
    have ho := h o List.mem_cons_self
    have hn : Vocabulary.Names ⟨d.values, d.flags, help⟩ o.name o.name := ⟨(written_name hs ho).1, .inl rfl⟩
    obtain ⟨n, y⟩ := o
    rcases (fits_iff d help _).2 ho with ⟨h', x, hx⟩ | ⟨h', hx⟩
    · dsimp only at h' hx hn
      subst hx
      exact .joined hn h' ih
    · dsimp only at h' hx hn
      subst hx
      exact .flag hn h' ih

theorem written_clear {outer : Vocabulary} (ha : Vocabulary.Apart ⟨d.values, d.flags, help⟩ outer) {occs : List Occ}
    (h : ∀ o ∈ occs, d.Allows o) {rest : List Str} (hr : outer.Clear rest) : outer.Clear (occs.map writeOcc ++ rest) := by
  intro w hw
  rw [beforeDashes_append] at hw
  · rcases List.mem_append.1 hw with hw | hw
    · obtain ⟨o, ho, rfl⟩ := List.mem_map.1 hw
      obtain ⟨hn, he, _⟩ := written_name hs (h o ho)
      rintro ⟨_, h1, m, hm, k, hk, hmk, h2, h3⟩
      rw [he] at h1 h2 h3
      rcases ha _ hn with h | h
      · exact h1 h
      · exact hmk (h m hm k hk h2 h3)
    · exact hr w hw
  · intro w hw
    obtain ⟨o, ho, rfl⟩ := List.mem_map.1 hw
    exact (written_name hs (h o ho)).2.2

end

theorem clear_dashes (v : Vocabulary) (ps : List Str) : v.Clear (if ps = [] then [] else "--".toList :: ps) := by
  intro w hw
  split at hw
  · cases hw
  · unfold beforeDashes at hw
    rw [List.takeWhile_cons_of_neg (by simp)] at hw
    cases hw

theorem clear_cons {v : Vocabulary} {w : Str} {ws : List Str} (h : ¬ "--".toList <+: w) (hc : v.Clear ws) : v.Clear (w :: ws) := by
  intro x hx
  have hw : w ≠ "--".toList := fun e => h (e ▸ List.prefix_refl _)
  have hb := beforeDashes_append (ws := [w]) (rest := ws) (by intro y hy; rw [List.mem_singleton.1 hy]; exact hw)
  rw [List.singleton_append] at hb
  rw [hb] at hx
  rcases List.mem_append.1 hx with hx | hx
  · rw [List.mem_singleton.1 hx]
    exact fun hA => h hA.1
  · exact hc x hx

/-- C116: every well-formed command line is written by `writeLine`, whatever its values and positional arguments are -/
theorem C116_writes (negative : Str → Bool) {line : CommandLine} (hl : LineOk line)
    (hm : (commandName line.command).1 = none → line.middle = []) : Writes negative (writeLine line) line := by
  have hsub := written_options (speaks_command line.command) negative line.sub hl.sub
  have hcmd : CommandWords negative (vocabulary line.command)
      (line.sub.map writeOcc ++ (if line.positional = [] then [] else "--".toList :: line.positional)) line.sub
      line.positional := by
    split
    · rename_i hp
      rw [List.append_nil, hp]
      exact commandWords_of_options hsub
    · rename_i hp
      exact CommandWords.dashes (ps := []) hsub (fun _ h => nomatch h) hp
  have htop := written_options speaks_main negative line.top hl.top
  have c1 := written_clear (speaks_command line.command) (apart_command line.command).1 hl.sub (clear_dashes vocabularyTop line.positional)
  have c2 := written_clear (speaks_command line.command) (apart_command line.command).2 hl.sub (clear_dashes vocabularyMiddle line.positional)
  unfold writeLine
  cases hn : commandName line.command with
  | mk g n =>
    rw [hn] at hm
    cases g with
    | none => exact .direct hn htop (hm rfl) hcmd c1
    | some g =>
      have hmid := hl.middle ((nested_iff _).1 (group_lookup hn).choose_spec.2.2)
      have hshort : ¬ "--".toList <+: n.toList := by
        revert hn
        cases line.command <;> intro hn <;> cases hn <;> decide
      exact .nested hn htop (written_options speaks_middle negative line.middle hmid) hcmd
        (written_clear speaks_middle apart_middle hmid (clear_cons hshort c1)) c2

/-- C116: it is accepted, and means that command line; and the process does what the line says -/
theorem C116_written_line (libs : MainLibs) (o : SignOracle) {environ : Environ} (he : EnvironOk environ) (negative : Str → Bool)
    {line : CommandLine} (hl : LineOk line) (hm : (commandName line.command).1 = none → line.middle = []) (other : List Str)
    (s : MainState) :
    (∃ ns, parseArgv environ negative (writeLine line) = .ok (line, ns)) ∧
    mainArgv libs o environ negative other (writeLine line) s = Cli.main libs o environ line s := by
  have hw := C116_writes negative hl hm
  obtain ⟨ns, hp⟩ := (C89_accepted_iff environ line).2 ⟨he, hl⟩
  exact ⟨⟨ns, (C115_parsed_iff environ negative _ line ns).2 ⟨hw, hp⟩⟩, (C115_main libs o he hw hl s).2 other⟩

/-- `sigstore [OPTIONS] verify identity --cert-identity=IDENTITY --cert-oidc-issuer=ISSUER`, followed by other words -/
def verifyIdentityWords (top : List Occ) (identity issuer : Str) (rest : List Str) : List Str :=
  top.map writeOcc ++
    "verify".toList :: "identity".toList :: ("--cert-identity=".toList ++ identity) :: ("--cert-oidc-issuer=".toList ++ issuer) :: rest

/-- the options before the command are documented, and choose at most one instance -/
structure TopOk (top : List Occ) : Prop where
  allowed : ∀ o ∈ top, documentedTop.Allows o
  exclusive : ∀ x ∈ ["--staging", "--instance", "--trust-config"], ∀ y ∈ ["--staging", "--instance", "--trust-config"],
    Occurs [x] top → Occurs [y] top → x = y

theorem TopOk.level {environ : Environ} (he : EnvironOk environ) {top : List Occ} (h : TopOk top) :
    ∃ ns, parseLevel environ mainOptions exclusiveGroup top = .ok (ns, false) := by
  obtain ⟨ns, hp⟩ := (C89_accepted_iff environ ⟨top, [], .trustInstance, [], [[]]⟩).2 ⟨he,
    { top := h.allowed
      middle := fun _ _ h => nomatch h
      sub := fun _ h => nomatch h
      exclusive := h.exclusive
      required := fun _ h => nomatch h
      positional := ⟨_, rfl⟩ }⟩
  obtain ⟨_, n, _, _, h1, _⟩ := parseArgs_ok hp
  exact ⟨n, h1⟩

/-- the options in it -/
def verifyIdentityOccs (identity issuer : Str) : List Occ :=
  [⟨"--cert-identity".toList, some identity⟩, ⟨"--cert-oidc-issuer".toList, some issuer⟩]

theorem verifyIdentity_allowed (identity issuer : Str) :
    ∀ o ∈ verifyIdentityOccs identity issuer, (documented .verifyIdentity).Allows o := by
  intro o ho
  rcases List.mem_cons.1 ho with rfl | ho
  · exact .inl ⟨"--cert-identity", by decide, rfl, fun h => nomatch h⟩
  · rw [List.mem_singleton.1 ho]
    exact .inl ⟨"--cert-oidc-issuer", by decide, rfl, fun h => nomatch h⟩

/-- what the parsers do with it -/
theorem verifyIdentity_parsed {environ : Environ} (he : EnvironOk environ) (negative : Str → Bool) {top : List Occ}
    (ht : TopOk top) (identity issuer : Str)
    {rest : List Str} {ms : List (Str × Mark)} (h1 : vocabularyTop.Clear rest) (h2 : vocabularyMiddle.Clear rest)
    (h3 : marks negative Command.verifyIdentity.options rest = .ok ms) :
    ∃ outer, parseArgv environ negative (verifyIdentityWords top identity issuer rest) =
      match parseLevel environ Command.verifyIdentity.options [] (verifyIdentityOccs identity issuer ++
        (consume Command.verifyIdentity.options .many .fresh ms).occs) with
      | .error e => .error e
      | .ok (sub, z) =>
        if (consume Command.verifyIdentity.options .many .fresh ms).extras || z ||
            !Command.verifyIdentity.arity (consume Command.verifyIdentity.options .many .fresh ms).args then
          .error (.systemExit 2)
        else .ok (⟨top, [], .verifyIdentity, verifyIdentityOccs identity issuer ++
          (consume Command.verifyIdentity.options .many .fresh ms).occs,
          (consume Command.verifyIdentity.options .many .fresh ms).args⟩, sub.over outer) := by
  have hb := (environOk_iff environ).2 he
  obtain ⟨_, i2⟩ := (buildParsers_iff environ _).1 hb
  obtain ⟨n1, l1⟩ := ht.level he
  obtain ⟨n2, i3⟩ : ∃ ns, initial environ commonOptions = .ok ns := i2 .trustInstance (mem_commands _)
  have l2 : parseLevel environ commonOptions [] [] = .ok (n2, false) := by
    unfold parseLevel
    rw [i3]
    rfl
  have allowed := verifyIdentity_allowed identity issuer
  have c1 := written_clear (speaks_command .verifyIdentity) (apart_command .verifyIdentity).1 allowed h1
  have c2 := written_clear (speaks_command .verifyIdentity) (apart_command .verifyIdentity).2 allowed h2
  have e1 := split_command (negative := negative) speaks_main (written_options speaks_main negative top ht.allowed)
    (name := "verify".toList) ⟨by decide, .inl (by decide)⟩
    (clear_cons (w := "identity".toList) (by decide) c1)
  have e2 := split_command (negative := negative) speaks_middle .nil (name := "identity".toList) ⟨by decide, .inl (by decide)⟩ c2
  have hs := speaks_command .verifyIdentity
  have e3 : splitWords negative Command.verifyIdentity.options .many
      ((verifyIdentityOccs identity issuer).map writeOcc ++ rest) =
      .ok ((consume Command.verifyIdentity.options .many .fresh ms).add (verifyIdentityOccs identity issuer) false) := by
    obtain ⟨o1, f1, a1⟩ := hs.values "--cert-identity".toList (by decide)
    obtain ⟨o2, f2, a2⟩ := hs.values "--cert-oidc-issuer".toList (by decide)
    have p1 := parse_joined (negative := negative) hs (w := "--cert-identity".toList) (n := "--cert-identity".toList)
      (x := identity) ⟨by decide, .inl rfl⟩
    have p2 := parse_joined (negative := negative) hs (w := "--cert-oidc-issuer".toList) (n := "--cert-oidc-issuer".toList)
      (x := issuer) ⟨by decide, .inl rfl⟩
    have d1 := (written_name hs (allowed _ List.mem_cons_self)).2.2
    have d2 := (written_name hs (allowed _ (List.mem_cons_of_mem _ List.mem_cons_self))).2.2
    have hm := marks_cons d1 p1 (marks_cons d2 p2 h3)
    unfold splitWords
    have hw : (verifyIdentityOccs identity issuer).map writeOcc ++ rest =
      writeOcc ⟨"--cert-identity".toList, some identity⟩ :: writeOcc ⟨"--cert-oidc-issuer".toList, some issuer⟩ :: rest := rfl
    rw [hw, hm]
    dsimp only
    rw [f1, f2, consume_closed (cluster_store a1), consume_closed (cluster_store a2)]
    rfl
  refine ⟨n2.over n1, ?_⟩
  have hw : verifyIdentityWords top identity issuer rest =
    top.map writeOcc ++ "verify".toList :: "identity".toList :: ((verifyIdentityOccs identity issuer).map writeOcc ++ rest) := rfl
  unfold parseArgv
  rw [hb]
  dsimp only
  rw [List.nil_append] at e2
  rw [hw, e1]
  dsimp only
  rw [l1]
  dsimp only
  rw [show lookupCommand "verify".toList = some (.inr .verify) by decide]
  dsimp only
  rw [e2]
  dsimp only
  rw [l2]
  dsimp only
  rw [show Group.verify.lookup "identity".toList = some .verifyIdentity by decide]
  dsimp only
  unfold parseCommand
  rw [show Command.verifyIdentity.kind = .many from rfl, e3]
  rfl

/-- C116: if `sigstore [OPTIONS] verify identity --cert-identity=IDENTITY --cert-oidc-issuer=ISSUER -- FILES` exits with status 0, every file
was verified for the identity and the issuer, whatever strings these are -/
theorem C116_verify_identity (libs : MainLibs) (o : SignOracle) {environ : Environ} (he : EnvironOk environ) (negative : Str → Bool)
    {top : List Occ} (ht : TopOk top) (identity issuer : Str) (hi : issuer ≠ []) (files : List Str) (other : List Str) (s : MainState)
    (hlib : LibrariesDoNotExit libs.verify (libs.sign.disk.fs s.sign.disk)) (r : Py Unit)
    (h : (mainArgv libs o environ negative other (verifyIdentityWords top identity issuer ("--".toList :: files)) s).1 = some r)
    (hr : exitStatus r = 0) :
    files ≠ [] ∧
    ∃ trust config certs, TrustOptions environ top [] true trust ∧
      (getTrustConfig (libs.sign.disk.fs s.sign.disk) libs.sign.tuf libs.sign.parsers trust s.sign.tuf).1 = .ok config ∧
      getFulcioCerts o.now config.root = .ok certs ∧
      ∀ file ∈ files, ∃ input digest b, ArgDenotes (libs.sign.disk.fs s.sign.disk) file input ∧
        DigestOf libs.sign.env.crypto (libs.sign.disk.fs s.sign.disk) input digest ∧
        verifyCommon libs.sign.env o.now ⟨config.root, certs⟩ b (identityPolicy identity (some issuer)).verify = .ok () ∧
        (UniqueExts b.cert → (utf8 issuer).length < 4294967296 →
          IssuedTo b.cert identity ∧ Claims b.cert .oidcIssuer issuer) ∧
        (ArtifactOk libs.sign.env b digest ∨
          ∃ payload inner, DsseOk libs.sign.env b "application/vnd.in-toto+json".toList payload ∧
            libs.sign.codec.parse payload = some inner ∧ HasSubject inner digest) := by
  have hb : mainArgv libs o environ negative other (verifyIdentityWords top identity issuer ("--".toList :: files)) s =
      match parseArgv environ negative (verifyIdentityWords top identity issuer ("--".toList :: files)) with
      | .error e => (some (.error e), s)
      | .ok (line, ns) => dispatch libs o ns line s := by
    unfold mainArgv
    rw [if_neg (by unfold verifyIdentityWords; simp)]
    rfl
  have hne : files ≠ [] := by
    rintro rfl
    obtain ⟨outer, hp⟩ := verifyIdentity_parsed he negative ht identity issuer (rest := ["--".toList])
      (ms := [("--".toList, .dashes)]) (clear_dashes vocabularyTop [[]]) (clear_dashes vocabularyMiddle [[]]) rfl
    obtain ⟨_, i2⟩ := (buildParsers_iff environ _).1 ((environOk_iff environ).2 he)
    obtain ⟨ns, hns⟩ := i2 .verifyIdentity (mem_commands _)
    have hlevel : ∃ sub, parseLevel environ Command.verifyIdentity.options [] (verifyIdentityOccs identity issuer ++ []) =
        .ok (sub, false) := by
      unfold parseLevel
      rw [hns]
      exact ⟨_, rfl⟩
    obtain ⟨sub, hlevel⟩ := hlevel
    have hc : consume Command.verifyIdentity.options .many .fresh [("--".toList, .dashes)] = ⟨[], [], true⟩ := by decide +kernel
    rw [hc, hlevel] at hp
    rw [hb, hp] at h
    obtain rfl := Option.some.inj h
    cases hr
  have hl : LineOk ⟨top, [], .verifyIdentity, verifyIdentityOccs identity issuer, files⟩ :=
    { top := ht.allowed
      middle := fun _ _ h => nomatch h
      sub := verifyIdentity_allowed identity issuer
      exclusive := ht.exclusive
      required := by
        intro x hx
        rcases List.mem_cons.1 hx with rfl | hx
        · exact ⟨_, List.mem_cons_self, _, List.mem_cons_self, rfl⟩
        · rw [List.mem_singleton.1 hx]
          exact ⟨_, List.mem_cons_of_mem _ List.mem_cons_self, _, List.mem_cons_self, rfl⟩
      positional := hne }
  have hw : writeLine ⟨top, [], .verifyIdentity, verifyIdentityOccs identity issuer, files⟩ =
      verifyIdentityWords top identity issuer ("--".toList :: files) := by
    unfold writeLine
    dsimp only [commandName]
    rw [if_neg hne]
    rfl
  have hm := (C116_written_line libs o he negative hl (fun h => nomatch h) other s).2
  rw [hw] at hm
  rw [hm] at h
  refine ⟨hne, ?_⟩
  rcases C91_verify_identity_partial libs o environ _ s rfl hlib r h hr with h' | h'
  · exfalso
    have hno : ∀ o ∈ verifyIdentityOccs identity issuer, ∀ n ∈ ["-h", "--help"], o.name ≠ n.toList := by
      intro o ho n hn
      rcases List.mem_cons.1 ho with rfl | ho
      · exact (by decide : ∀ n ∈ ["-h", "--help"], "--cert-identity".toList ≠ n.toList) n hn
      · rw [List.mem_singleton.1 ho]
        exact (by decide : ∀ n ∈ ["-h", "--help"], "--cert-oidc-issuer".toList ≠ n.toList) n hn
    have hno' : ∀ o ∈ top, ∀ n ∈ ["-h", "--help", "-V", "--version"], o.name ≠ n.toList := by
      intro o ho n hn e
      rcases ht.allowed o ho with ⟨m, hm, e', _⟩ | ⟨m, hm, e', _⟩
      · exact (by decide : ∀ m ∈ documentedTop.values, ∀ n ∈ ["-h", "--help", "-V", "--version"], m.toList ≠ n.toList)
          m hm n hn (e'.symm.trans e)
      · exact (by decide : ∀ m ∈ documentedTop.flags, ∀ n ∈ ["-h", "--help", "-V", "--version"], m.toList ≠ n.toList)
          m hm n hn (e'.symm.trans e)
    rcases h' with ⟨o, ho, n, hn, e⟩ | ⟨_, h, _⟩ | ⟨o, ho, n, hn, e⟩
    · exact hno' o ho n hn e
    · cases h
    · exact hno o ho n hn e
  · obtain ⟨i, j, trust, config, certs, g1, g2, g3, g4, g5, _, g6⟩ := h'
    obtain rfl : i = identity := lastGiven_unique g1 (.here ⟨_, List.mem_cons_self, rfl⟩ rfl (by
      rintro ⟨o, ho, n, hn, e⟩
      rw [List.mem_singleton.1 ho, List.mem_singleton.1 hn] at e
      exact absurd e (by decide : "--cert-oidc-issuer".toList ≠ "--cert-identity".toList)))
    obtain rfl : j = issuer := lastGiven_unique g2 (.later (.here ⟨_, List.mem_cons_self, rfl⟩ rfl (by
      rintro ⟨_, h, _⟩; cases h)))
    have g3' : TrustOptions environ top [] true trust := { g3 with
      offline := by
        have := g3.offline
        rw [if_pos rfl] at this ⊢
        unfold FlagValue at this ⊢
        rw [this]
        refine or_congr_left (iff_of_false ?_ ?_)
        · rintro ⟨o, ho, n, hn, e⟩
          rw [List.mem_singleton.1 hn] at e
          rcases List.mem_cons.1 ho with rfl | ho
          · exact absurd e (by decide : "--cert-identity".toList ≠ "--offline".toList)
          · rw [List.mem_singleton.1 ho] at e
            exact absurd e (by decide : "--cert-oidc-issuer".toList ≠ "--offline".toList)
        · rintro ⟨_, h, _⟩; cases h }
    refine ⟨trust, config, certs, g3', g4, g5, ?_⟩
    intro f hf
    obtain ⟨input, digest, b, k1, k2, k3, k4, k5⟩ := g6 f hf
    exact ⟨input, digest, b, k1, k2, k3, (fun hu hsz => ⟨(k4 hu hsz).1, (k4 hu hsz).2 hi⟩), k5⟩

/-- C116: without `--`, a file with the name `-h` makes the same command exit with status 0, without verifying anything -/
theorem C116_unprotected_name (libs : MainLibs) (o : SignOracle) {environ : Environ} (he : EnvironOk environ)
    (negative : Str → Bool) {top : List Occ} (ht : TopOk top) (identity issuer : Str) (other : List Str) (s : MainState) :
    mainArgv libs o environ negative other (verifyIdentityWords top identity issuer ["-h".toList]) s =
      (some (.error (.systemExit 0)), s) ∧ exitStatus (.error (.systemExit 0) : Py Unit) = 0 := by
  have hs := speaks_command .verifyIdentity
  have hm := marks_cons (ws := []) (by decide) (parse_names (negative := negative) hs (w := "-h".toList) (n := "-h".toList)
    ⟨by decide, .inl rfl⟩) rfl
  obtain ⟨outer, hp⟩ := verifyIdentity_parsed he negative ht identity issuer (rest := ["-h".toList])
    (clear_cons (by decide) (clear_dashes vocabularyTop []))
    (clear_cons (by decide) (clear_dashes vocabularyMiddle [])) hm
  refine ⟨?_, rfl⟩
  obtain ⟨_, i2⟩ := (buildParsers_iff environ _).1 ((environOk_iff environ).2 he)
  obtain ⟨ns, hns⟩ := i2 .verifyIdentity (mem_commands _)
  have hl : parseLevel environ Command.verifyIdentity.options [] (verifyIdentityOccs identity issuer ++ [⟨"-h".toList, none⟩]) =
      .error (.systemExit 0) := by
    unfold parseLevel
    rw [hns]
    rfl
  have hc : (consume Command.verifyIdentity.options .many .fresh
    [("-h".toList, .option (findOpt Command.verifyIdentity.options "-h".toList) "-h".toList none)]).occs = [⟨"-h".toList, none⟩] := by
    decide +kernel
  rw [hc, hl] at hp
  unfold mainArgv
  rw [if_neg (by unfold verifyIdentityWords; simp), hp]

/-! ## Examples -/

/-- the command line that some words mean -/
def exLine (argv : List String) : Option CommandLine :=
  match parseArgv exNoEnviron (fun _ => false) (argv.map String.toList) with
  | .ok (line, _) => some line
  | .error _ => none

/-- abbreviations, values joined and not, several `-v`, options after the files -/
example : exLine ["--trust=t", "verify", "-vv", "identity", "--cert-id", "me", "--cert-oidc=https://i", "a", "--offl"] =
    some ⟨[exOcc "--trust-config" "t"], [⟨"-v".toList, none⟩, ⟨"-v".toList, none⟩], .verifyIdentity,
      [exOcc "--cert-identity" "me", exOcc "--cert-oidc-issuer" "https://i", ⟨"--offline".toList, none⟩], ["a".toList]⟩ := by
  decide +kernel

theorem exLine_writes {argv : List String} {line : CommandLine} (h : exLine argv = some line) :
    Writes (fun _ => false) (argv.map String.toList) line := by
  unfold exLine at h
  split at h
  · rename_i l ns hp
    obtain rfl := Option.some.inj h
    exact ((C115_parsed_iff _ _ _ _ _).1 hp).1
  · cases h

/-- so these words write that line (C115) -/
example : Writes (fun _ => false)
    (["--trust=t", "verify", "-vv", "identity", "--cert-id", "me", "--cert-oidc=https://i", "a", "--offl"].map String.toList)
    ⟨[exOcc "--trust-config" "t"], [⟨"-v".toList, none⟩, ⟨"-v".toList, none⟩], .verifyIdentity,
      [exOcc "--cert-identity" "me", exOcc "--cert-oidc-issuer" "https://i", ⟨"--offline".toList, none⟩], ["a".toList]⟩ :=
  exLine_writes (by decide +kernel)

/-- the files must be together, `--cer` could be three options, and `--v` is ambiguous before the command, so it cannot be
written after it either -/
example : exLine ["verify", "identity", "--cert-id", "me", "a", "--cert-oidc", "https://i", "b"] = none ∧
    exLine ["verify", "identity", "--cer", "me", "a"] = none ∧
    exLine ["sign", "--v", "a"] = none ∧ exLine ["sign", "--verb", "a"] ≠ none := by
  decide +kernel

/-- a file with a name that looks like an option -/
example : exLine ["sign", "--", "--overwrite"] = some ⟨[], [], .sign, [], ["--overwrite".toList]⟩ ∧
    exLine ["sign", "a", "--overwrite"] = some ⟨[], [], .sign, [⟨"--overwrite".toList, none⟩], ["a".toList]⟩ ∧
    exLine ["sign", "--identity-token=-x", "a"] = some ⟨[], [], .sign, [exOcc "--identity-token" "-x"], ["a".toList]⟩ ∧
    exLine ["sign", "--identity-token", "-x", "a"] = none := by
  decide +kernel

/-- the error, if some words are refused -/
def exRefusal (argv : List String) : Option Exc :=
  match parseArgv exNoEnviron (fun _ => false) (argv.map String.toList) with
  | .ok _ => none
  | .error e => some e

/-- a refusal with status 2, and one with status 0 (C115) -/
example : exRefusal ["sign", "--nonsense", "a"] = some (.systemExit 2) ∧ exRefusal ["sign", "-vh"] = some (.systemExit 0) ∧
    HelpWord "-vh".toList ∧ HelpWord "--he".toList ∧ ¬ HelpWord "--verbose".toList := by
  refine ⟨by decide +kernel, by decide +kernel, .inr ⟨_, rfl, by decide, by decide⟩, .inl (by decide +kernel), ?_⟩
  rintro (⟨_, _, h⟩ | ⟨t, h, ht, _⟩)
  · revert h; decide +kernel
  · obtain rfl := (List.cons.inj h).2
    exact ht rfl

/-- the example of C91 exits with status 0 when written like this -/
example : ∃ r, (mainArgv exMainVerify { exOracle [] with now := 3000000000 } exNoEnviron (fun _ => false) []
    (verifyIdentityWords [exOcc "--trust-config" "t"] "me".toList "https://i".toList ["--".toList, "a".toList])
    exVerifyState).1 = some r ∧ exitStatus r = 0 := by
  obtain ⟨r, h1, h2⟩ := exMainVerified
  refine ⟨r, ?_, h2⟩
  rw [← h1]
  exact congrArg Prod.fst (C116_written_line exMainVerify _ exVerifyLine_ok.1 (fun _ => false) exVerifyLine_ok.2
    (fun h => nomatch h) [] exVerifyState).2

example : TopOk [exOcc "--trust-config" "t"] := ⟨exVerifyLine_ok.2.top, exVerifyLine_ok.2.exclusive⟩

end Sigstore.Props
