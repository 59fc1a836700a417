import Verif.Props.Batch
import Verif.Spec.Moving

/-!
# C125: changing files during `sigstore verify`
-/

namespace Sigstore.Props

open Sigstore.Trust Sigstore.LogEntry Sigstore.Dsse Sigstore.Signing Sigstore.Cli Sigstore.Spec Sigstore.Args Sigstore.Tuf

/-! ## Accesses -/

theorem filesRead_append (l l' : List Moving.Access) : FilesRead (l ++ l') = FilesRead l ++ FilesRead l' := by
  induction l with
  | nil => rfl
  | cons a l ih => cases a <;> simp [FilesRead, ih]

theorem _root_.Sigstore.Spec.WasRead.mono {fs : Nat → Fs} {l : List Moving.Access} {p : Path} {c : Bytes} (h : WasRead fs l p c)
    (l' : List Moving.Access) : WasRead fs (l ++ l') p c := by
  obtain ⟨n, h1, h2⟩ := h
  refine ⟨n, ?_, h2⟩
  rw [List.getElem?_append_left]
  · exact h1
  · by_contra hn
    rw [List.getElem?_eq_none (Nat.le_of_not_lt hn)] at h1
    cases h1

theorem _root_.Sigstore.Spec.WasRead.last {fs : Nat → Fs} {l : List Moving.Access} {p : Path} {c : Bytes} (h : (fs l.length).read p = .ok c) :
    WasRead fs (l ++ [.read p]) p c := ⟨l.length, by simp, h⟩

theorem _root_.Sigstore.Spec.DigestRead.mono {c : Crypto} {fs : Nat → Fs} {l : List Moving.Access} {i : VerifyInput} {d : Hashed}
    (h : DigestRead c fs l i d) (l' : List Moving.Access) : DigestRead c fs (l ++ l') i d := by
  cases h with
  | digest => exact .digest
  | file h => exact .file (h.mono l')

theorem _root_.Sigstore.Spec.BundleRead.mono {venv : VerifyEnv} {fs : Nat → Fs} {l : List Moving.Access} {d : Hashed} {m : Materials} {b : Bundle}
    (h : BundleRead venv fs l d m b) (l' : List Moving.Access) : BundleRead venv fs (l ++ l') d m b := by
  cases h with
  | bundled h1 h2 h3 => exact .bundled (h1.mono l') h2 h3
  | detached h1 h2 h3 h4 h5 h6 h7 => exact .detached (h1.mono l') h2 (h3.mono l') h4 h5 h6 h7

theorem log_mono {α : Type} {l l' : List α} {n : Nat} {a : α} (h : l[n]? = some a) : (l ++ l')[n]? = some a := by
  rw [List.getElem?_append_left]
  · exact h
  · by_contra hn
    rw [List.getElem?_eq_none (Nat.le_of_not_lt hn)] at h
    cases h

/-! ## Arguments and materials: only tests -/

/-- only tests in between -/
def OnlyTests (l l' : List Moving.Access) : Prop := ∃ e, l' = l ++ e ∧ FilesRead e = []

theorem OnlyTests.refl (l : List Moving.Access) : OnlyTests l l := ⟨[], by simp, rfl⟩

theorem OnlyTests.trans {l1 l2 l3 : List Moving.Access} (h : OnlyTests l1 l2) (h' : OnlyTests l2 l3) : OnlyTests l1 l3 := by
  obtain ⟨e, rfl, he⟩ := h
  obtain ⟨e', rfl, he'⟩ := h'
  exact ⟨e ++ e', List.append_assoc .., by rw [filesRead_append, he, he']; rfl⟩

theorem OnlyTests.test {fs : Nat → Fs} {l l1 l2 : List Moving.Access} {p : Path} {b : Bool} (h : OnlyTests l l1)
    (ht : Moving.isFile fs l1 p = (b, l2)) : OnlyTests l l2 := by
  cases ht
  exact h.trans ⟨[.test p], rfl, rfl⟩

theorem OnlyTests.test' {fs : Nat → Fs} {l l1 : List Moving.Access} {p : Path} (h : OnlyTests l l1) :
    OnlyTests l (Moving.isFile fs l1 p).2 := h.trans ⟨[.test p], rfl, rfl⟩

theorem onlyTests_step {fs : Nat → Fs} {l l1 l2 : List Moving.Access} {p : Path} {b : Bool}
    (ht : Moving.isFile fs l1 p = (b, l2)) (h : OnlyTests l l1) : OnlyTests l l2 := h.test ht

theorem moving_parseInputs {fs : Nat → Fs} {as : List Str} : ∀ {l l' : List Moving.Access} {is : List VerifyInput},
    Moving.parseInputs fs l as = (.ok is, l') →
      OnlyTests l l' ∧ List.Forall₂ (fun a i => ∃ n, l'[n]? = some (.test (Path.ofStr a)) ∧ ArgDenotes (fs n) a i) as is := by
  induction as with
  | nil =>
    intro l l' is h
    cases h
    exact ⟨.refl _, .nil⟩
  | cons a as ih =>
    intro l l' is h
    rw [Moving.parseInputs.eq_def] at h
    dsimp only [Moving.fileOrDigest] at h
    cases hf : Cli.fileOrDigest (fs l.length) a with
    | error e => rw [hf] at h; cases h
    | ok i =>
      rw [hf] at h
      dsimp only at h
      cases hr : Moving.parseInputs fs (l ++ [.test (Path.ofStr a)]) as with
      | mk r l1 =>
        rw [hr] at h
        cases r with
        | error e => cases h
        | ok is' =>
          cases h
          obtain ⟨ht, hd⟩ := ih hr
          refine ⟨OnlyTests.trans ⟨[_], rfl, rfl⟩ ht, .cons ⟨l.length, ?_, (C45_argument_iff _ _ _).1 hf⟩ hd⟩
          obtain ⟨e, rfl, _⟩ := ht
          exact log_mono (by simp)

theorem moving_defaultBundle {fs : Nat → Fs} {l l' : List Moving.Access} {file sig cert b : Path}
    (h : Moving.defaultBundle fs l file sig cert = (.ok b, l')) :
    OnlyTests l l' ∧ (b = Beside file ".sigstore.json".toList ∨ b = Beside file ".sigstore".toList) := by
  unfold Moving.defaultBundle at h
  dsimp only at h
  have h0 := OnlyTests.refl l
  repeat' split at h
  all_goals first
    | (cases h; done)
    | (cases h; exact ⟨by solve_by_elim (maxDepth := 12) [onlyTests_step, OnlyTests.test'], .inl rfl⟩)
    | (cases h; exact ⟨by solve_by_elim (maxDepth := 12) [onlyTests_step, OnlyTests.test'], .inr rfl⟩)

theorem moving_fileMaterials {fs : Nat → Fs} {args : VerifyArgs} {l l' : List Moving.Access} {file : Path} {m : Materials}
    (hx : args.bundle ≠ none → args.certificate = none ∧ args.signature = none)
    (h : Moving.fileMaterials fs args l file = (.ok m, l')) :
    OnlyTests l l' ∧ NamedMaterials args.certificate args.signature args.bundle (.file file) m := by
  unfold Moving.fileMaterials at h
  dsimp only at h
  split at h
  · cases h
  · rename_i l1 h1
    have h0 := (OnlyTests.refl l).test h1
    have hb : ∀ b l2, (match args.bundle with
        | some b => ((.ok b, l1) : Py Path × Moving.Log)
        | none => Moving.defaultBundle fs l1 file (args.signature.getD (sibling file ".sig".toList))
            (args.certificate.getD (sibling file ".crt".toList))) = (.ok b, l2) →
        OnlyTests l l2 ∧ (args.bundle = some b ∨ args.bundle = none ∧
          (b = Beside file ".sigstore.json".toList ∨ b = Beside file ".sigstore".toList)) := by
      intro b l2 hb
      split at hb
      · rename_i b' hb'
        cases hb
        exact ⟨h0, .inl hb'⟩
      · rename_i hb'
        obtain ⟨ht, hc⟩ := moving_defaultBundle hb
        exact ⟨h0.trans ht, .inr ⟨hb', hc⟩⟩
    split at h
    · cases h
    · rename_i b l2 h2
      obtain ⟨ht, hc⟩ := hb b l2 h2
      split at h
      · rename_i hs
        have hs' : args.certificate ≠ none ∨ args.signature ≠ none := by
          rw [Bool.or_eq_true, Option.isSome_iff_ne_none, Option.isSome_iff_ne_none] at hs
          exact hs.symm
        have hn : args.bundle = none := by
          by_contra hn
          obtain ⟨h3, h4⟩ := hx hn
          rcases hs' with h | h <;> contradiction
        rw [Prod.mk.injEq] at h
        obtain ⟨hr, rfl⟩ := h
        split at hr
        · cases hr
        · cases hr
          exact ⟨ht.test'.test', .detachedFile hn hs'⟩
      · rename_i hs
        have hs' : args.certificate = none ∧ args.signature = none := by
          rw [Bool.or_eq_true, Option.isSome_iff_ne_none, Option.isSome_iff_ne_none, not_or, not_not, not_not] at hs
          exact hs.symm
        rw [Prod.mk.injEq] at h
        obtain ⟨hr, rfl⟩ := h
        split at hr
        · cases hr
        · cases hr
          refine ⟨ht.test', ?_⟩
          rcases hc with h | ⟨h, rfl | rfl⟩
          · exact .explicitBundle h
          · exact .foundBundle h hs'.1 hs'.2
          · exact .foundLegacy h hs'.1 hs'.2

theorem moving_fileLoop {fs : Nat → Fs} {args : VerifyArgs}
    (hx : args.bundle ≠ none → args.certificate = none ∧ args.signature = none) {is : List VerifyInput} :
    ∀ {map map' : Dict VerifyInput Materials} {l l' : List Moving.Access}, map.keys.Nodup →
      (∀ x ∈ map, NamedMaterials args.certificate args.signature args.bundle x.1 x.2) →
      Moving.fileLoop fs args map l is = (.ok map', l') →
      OnlyTests l l' ∧ map'.keys.Nodup ∧ (∀ x ∈ map', NamedMaterials args.certificate args.signature args.bundle x.1 x.2) ∧
        ∀ i, i ∈ map'.keys ↔ i ∈ map.keys ∨ i ∈ is ∧ i.isDigest = false := by
  induction is with
  | nil =>
    intro map map' l l' hn hm h
    cases h
    exact ⟨.refl _, hn, hm, by simp⟩
  | cons i is ih =>
    intro map map' l l' hn hm h
    cases i with
    | digest d =>
      rw [Moving.fileLoop] at h
      obtain ⟨h1, h2, h3, h4⟩ := ih hn hm h
      refine ⟨h1, h2, h3, fun i => ?_⟩
      rw [h4 i, List.mem_cons]
      constructor
      · rintro (h | ⟨h, h'⟩)
        · exact .inl h
        · exact .inr ⟨.inr h, h'⟩
      · rintro (h | ⟨rfl | h, h'⟩)
        · exact .inl h
        · cases h'
        · exact .inr ⟨h, h'⟩
    | file p =>
      rw [Moving.fileLoop] at h
      cases hf : Moving.fileMaterials fs args l p with
      | mk r l1 =>
        rw [hf] at h
        cases r with
        | error e => cases h
        | ok m =>
          dsimp only at h
          obtain ⟨ht, hm1⟩ := moving_fileMaterials hx hf
          have hm' : ∀ x ∈ Dict.set map (.file p) m, NamedMaterials args.certificate args.signature args.bundle x.1 x.2 := by
            rintro ⟨k, v⟩ hk
            have hg := Dict.get?_of_mem (Dict.nodup_keys_set map (.file p) m hn) hk
            by_cases hkp : VerifyInput.file p = k
            · subst hkp
              rw [Dict.get?_set_self] at hg
              cases hg
              exact hm1
            · rw [Dict.get?_set_ne _ _ hkp] at hg
              exact hm (k, v) (Dict.mem_of_get? hg)
          obtain ⟨h1, h2, h3, h4⟩ := ih (Dict.nodup_keys_set map (.file p) m hn) hm' h
          refine ⟨ht.trans h1, h2, h3, fun i => ?_⟩
          rw [h4 i, Dict.keys_set, List.mem_cons]
          constructor
          · rintro (h | ⟨h, h'⟩)
            · split at h
              · exact .inl h
              · rcases List.mem_append.1 h with h | h
                · exact .inl h
                · obtain rfl := List.mem_singleton.1 h
                  exact .inr ⟨.inl rfl, rfl⟩
            · exact .inr ⟨.inr h, h'⟩
          · rintro (h | ⟨rfl | h, h'⟩)
            · left
              split
              · exact h
              · exact List.mem_append_left _ h
            · left
              split
              · assumption
              · exact List.mem_append_right _ (List.mem_singleton.2 rfl)
            · exact .inr ⟨h, h'⟩

theorem moving_digestMaterials {fs : Nat → Fs} {args : VerifyArgs} {l l' : List Moving.Access} {d : Hashed} {m : Materials}
    (hx : args.bundle ≠ none → args.certificate = none ∧ args.signature = none)
    (h : Moving.digestMaterials fs args l = (.ok m, l')) :
    OnlyTests l l' ∧ NamedMaterials args.certificate args.signature args.bundle (.digest d) m := by
  have h0 := OnlyTests.refl l
  unfold Moving.digestMaterials at h
  split at h
  · split at h
    · cases h
    · rename_i sig hs
      dsimp only at h
      split at h
      · cases h
      · rename_i cert hc
        rw [Prod.mk.injEq] at h
        obtain ⟨hr, rfl⟩ := h
        split at hr
        · cases hr
        · cases hr
          refine ⟨h0.test'.test', .detachedDigest ?_ hc hs⟩
          by_contra hn
          rw [(hx hn).1] at hc
          cases hc
  · split at h
    · cases h
    · rename_i b hb
      rw [Prod.mk.injEq] at h
      obtain ⟨hr, rfl⟩ := h
      split at hr
      · cases hr
      · cases hr
        exact ⟨h0.test', .explicitBundle hb⟩

theorem moving_inputMap {fs : Nat → Fs} {args : VerifyArgs} {l l' : List Moving.Access} {map : Dict VerifyInput Materials}
    (h : Moving.inputMap fs args l = (.ok map, l')) :
    OnlyTests l l' ∧ map.keys.Nodup ∧ (∀ x ∈ map, NamedMaterials args.certificate args.signature args.bundle x.1 x.2) ∧
      ∀ i, i ∈ map.keys ↔ i ∈ args.inputs := by
  unfold Moving.inputMap at h
  dsimp only at h
  split at h
  · cases h
  rename_i h1
  split at h
  · cases h
  rename_i h2
  split at h
  · cases h
  rename_i h3
  split at h
  · cases h
  have hx : args.bundle ≠ none → args.certificate = none ∧ args.signature = none := by
    intro hb
    rw [← Option.isSome_iff_ne_none] at hb
    rw [hb] at h2
    cases hc : args.certificate <;> cases hs : args.signature <;> simp [hc, hs] at h2 ⊢
  have hdig : ∀ d, .digest d ∈ args.inputs → args.inputs = [.digest d] := by
    intro d hd
    have hany : args.inputs.any VerifyInput.isDigest = true := List.any_eq_true.2 ⟨_, hd, rfl⟩
    rw [hany] at h3
    have hle : ¬ args.inputs.length > 1 := by
      intro hl
      rw [decide_eq_true hl] at h1
      cases hc : args.certificate <;> cases hs : args.signature <;> cases hb : args.bundle <;> simp [hc, hs, hb] at h1 h3
    match hi : args.inputs, hd with
    | [x], hd => obtain rfl := List.mem_singleton.1 hd; rfl
    | x :: y :: r, _ => rw [hi] at hle; simp at hle
  split at h
  · cases h
  · rename_i l1 hf
    obtain ⟨ht, _, _, hk⟩ := moving_fileLoop hx (map := []) List.nodup_nil (by simp) hf
    split at h
    · rename_i input hi
      cases input with
      | file p =>
        have := (hk (.file p)).2 (.inr ⟨by rw [hi]; simp, rfl⟩)
        cases this
      | digest d =>
        cases hd : Moving.digestMaterials fs args l1 with
        | mk r l2 =>
          rw [hd] at h
          cases r with
          | error e => cases h
          | ok m =>
            cases h
            obtain ⟨ht', hm⟩ := moving_digestMaterials (d := d) hx hd
            exact ⟨ht.trans ht', by simp [Dict.keys], by simpa using hm, by simp [Dict.keys, hi]⟩
    · cases h
  · rename_i x xs l1 hf
    cases h
    obtain ⟨ht, hn, hm, hk⟩ := moving_fileLoop hx (map := []) List.nodup_nil (by simp) hf
    refine ⟨ht, hn, hm, fun i => ?_⟩
    rw [hk i]
    constructor
    · rintro (h | ⟨h, _⟩)
      · cases h
      · exact h
    · intro hi
      right
      refine ⟨hi, ?_⟩
      cases i with
      | file p => rfl
      | digest d =>
        exfalso
        rw [hdig d hi] at hf
        cases hf

/-! ## Reading -/

/-- the files of an input -/
def inputFiles : VerifyInput → List Path
  | .digest _ => []
  | .file p => [p]

theorem moving_inputDigest {c : Crypto} {fs : Nat → Fs} {l l' : List Moving.Access} {i : VerifyInput} {d : Hashed}
    (h : Moving.inputDigest c fs l i = (.ok d, l')) :
    DigestRead c fs l' i d ∧ ∃ e, l' = l ++ e ∧ FilesRead e = inputFiles i := by
  unfold Moving.inputDigest at h
  rw [Prod.mk.injEq] at h
  obtain ⟨hr, rfl⟩ := h
  refine ⟨?_, _, rfl, by cases i <;> rfl⟩
  cases (inputDigest_iff _ _ _ _).1 hr with
  | digest => exact .digest
  | file hf => exact .file (.last hf)

/-- the files of materials -/
def materialFiles : Materials → List Path
  | .bundled b => [b]
  | .unbundled c s => [c, s]

theorem moving_loadMaterials {venv : VerifyEnv} {fs : Nat → Fs} {d : Hashed} {l l' : List Moving.Access} {w w' : VerifyWorld}
    {m : Materials} {b : Bundle} (h : Moving.loadMaterials venv fs d l w m = (.ok b, l', w')) :
    BundleRead venv fs l' d m b ∧ ∃ e, l' = l ++ e ∧ FilesRead e = materialFiles m := by
  cases m with
  | bundled p =>
    rw [Moving.loadMaterials] at h
    rw [Prod.mk.injEq, Prod.mk.injEq] at h
    obtain ⟨hr, rfl, _⟩ := h
    refine ⟨?_, _, rfl, rfl⟩
    cases (loadMaterials_iff _ _ _ _ _ _).1 hr with
    | bundled h1 h2 h3 => exact .bundled (.last h1) h2 h3
  | unbundled cp sp =>
    rw [Moving.loadMaterials] at h
    split at h
    · cases h
    · rename_i pem h1
      split at h
      · cases h
      · rename_i cert h2
        dsimp only at h
        split at h
        · cases h
        · rename_i text h3
          split at h
          · cases h
          · rename_i sig h4
            split at h
            · cases h
            · rename_i body h5
              obtain ⟨h5', rfl⟩ := (hashedrekordFromParts_iff _ _ _ _).1 h5
              split at h
              · cases h
              · cases h
              · rename_i entry h6
                rw [Prod.mk.injEq, Prod.mk.injEq] at h
                obtain ⟨hr, rfl, _⟩ := h
                exact ⟨.detached ((Spec.WasRead.last h1).mono _) h2 (.last ((readText_iff _ _ _).1 h3)) h4 h5' h6 hr,
                  [.read cp, .read sp], by rw [List.append_assoc]; rfl, rfl⟩

theorem filesOf_eq (x : VerifyInput × Materials) :
    FilesOf x = inputFiles x.1 ++ materialFiles x.2 := by
  obtain ⟨i, m⟩ := x
  cases i <;> cases m <;> rfl

/-- what was found out about an input -/
def ItemRead (venv : VerifyEnv) (fs : Nat → Fs) (log : List Moving.Access) (x : VerifyInput × Materials)
    (y : VerifyInput × Hashed × Bundle) : Prop :=
  y.1 = x.1 ∧ DigestRead venv.env.crypto fs log x.1 y.2.1 ∧ BundleRead venv fs log y.2.1 x.2 y.2.2

theorem moving_loadAll {venv : VerifyEnv} {fs : Nat → Fs} {map : Dict VerifyInput Materials} :
    ∀ {l l' : List Moving.Access} {w w' : VerifyWorld} {items : List (VerifyInput × Hashed × Bundle)},
      Moving.loadAll venv fs l w map = (.ok items, l', w') →
      List.Forall₂ (ItemRead venv fs l') map items ∧ ∃ e, l' = l ++ e ∧ FilesRead e = map.flatMap FilesOf := by
  induction map with
  | nil =>
    intro l l' w w' items h
    cases h
    exact ⟨.nil, [], by simp, rfl⟩
  | cons x map ih =>
    obtain ⟨i, m⟩ := x
    intro l l' w w' items h
    rw [Moving.loadAll.eq_def] at h
    dsimp only at h
    cases hd : Moving.inputDigest venv.env.crypto fs l i with
    | mk r l1 =>
      rw [hd] at h
      cases r with
      | error e => cases h
      | ok d =>
        dsimp only at h
        cases hm : Moving.loadMaterials venv fs d l1 w m with
        | mk r y =>
          obtain ⟨l2, w2⟩ := y
          rw [hm] at h
          cases r with
          | error e => cases h
          | ok b =>
            dsimp only at h
            cases hr : Moving.loadAll venv fs l2 w2 map with
            | mk r y =>
              obtain ⟨l3, w3⟩ := y
              rw [hr] at h
              cases r with
              | error e => cases h
              | ok items' =>
                cases h
                obtain ⟨h1, e1, rfl, h1'⟩ := moving_inputDigest hd
                obtain ⟨h2, e2, rfl, h2'⟩ := moving_loadMaterials hm
                obtain ⟨h3, e3, rfl, h3'⟩ := ih hr
                refine ⟨.cons ⟨rfl, (h1.mono e2).mono e3, h2.mono e3⟩ h3, e1 ++ (e2 ++ e3), by simp, ?_⟩
                rw [List.flatMap_cons, filesOf_eq, filesRead_append, filesRead_append, h1', h2', h3', List.append_assoc]

/-! ## The command -/

/-- the trust configuration that was used, and when it was read -/
def ConfigRead (venv : VerifyEnv) (fs : Nat → Fs) (log : List Moving.Access) (trust : TrustArgs) (w : Tuf.World)
    (config : LoadedConfig) : Prop :=
  ∃ n, (Cli.getTrustConfig (fs n) venv.tuf venv.parsers trust w).1 = .ok config ∧
    ∀ p, trust.trustConfig = some p → log[n]? = some (.read p)

theorem moving_getTrustConfig {fs : Nat → Fs} {venv : VerifyEnv} {trust : TrustArgs} {l l' : List Moving.Access}
    {t t' : Tuf.World} {config : LoadedConfig} (h : Moving.getTrustConfig fs venv.tuf venv.parsers trust l t = (.ok config, l', t')) :
    (Cli.getTrustConfig (fs l.length) venv.tuf venv.parsers trust t).1 = .ok config ∧ ∃ e, l' = l ++ e ∧
      e = trust.trustConfig.toList.map Moving.Access.read := by
  unfold Moving.getTrustConfig at h
  rw [Prod.mk.injEq, Prod.mk.injEq] at h
  obtain ⟨h1, rfl, _⟩ := h
  refine ⟨h1, _, rfl, ?_⟩
  unfold trustSource
  cases trust.trustConfig with
  | some p => rfl
  | none =>
    dsimp only
    split
    · rename_i heq
      repeat' split at heq
      all_goals cases heq
    · rfl

theorem filesRead_reads (ps : List Path) : FilesRead (ps.map Moving.Access.read) = ps := by
  induction ps with
  | nil => rfl
  | cons p ps ih => simp [FilesRead, ih]

theorem moving_collectState {venv : VerifyEnv} {fs : Nat → Fs} {now : Time} {args : VerifyArgs} {l l' : List Moving.Access}
    {w w' : VerifyWorld} {v : Verifier} {items : List (VerifyInput × Hashed × Bundle)}
    (h : Moving.collectState venv fs now args l w = (.ok (v, items), l', w')) :
    ∃ (map : List (VerifyInput × Materials)) (config : LoadedConfig) (certs : List Cert), (∀ i, i ∈ map.map Prod.fst ↔ i ∈ args.inputs) ∧ (map.map Prod.fst).Nodup ∧
      (∀ x ∈ map, NamedMaterials args.certificate args.signature args.bundle x.1 x.2) ∧
      ConfigRead venv fs l' args.trust w.tuf config ∧ getFulcioCerts now config.root = .ok certs ∧ v = ⟨config.root, certs⟩ ∧
      List.Forall₂ (ItemRead venv fs l') map items ∧
      ∃ e, l' = l ++ e ∧ FilesRead e = args.trust.trustConfig.toList ++ map.flatMap FilesOf := by
  unfold Moving.collectState at h
  cases hm : Moving.inputMap fs args l with
  | mk r l1 =>
    rw [hm] at h
    cases r with
    | error e => cases h
    | ok map =>
      dsimp only at h
      cases hc : Moving.getTrustConfig fs venv.tuf venv.parsers args.trust l1 w.tuf with
      | mk r y =>
        obtain ⟨l2, t⟩ := y
        rw [hc] at h
        cases r with
        | error e => cases h
        | ok config =>
          dsimp only at h
          cases hr : config.trustedRoot with
          | error e => rw [hr] at h; cases h
          | ok root =>
            rw [hr] at h
            dsimp only at h
            cases hv : Verifier.init now root with
            | error e => rw [hv] at h; cases h
            | ok v' =>
              rw [hv] at h
              dsimp only at h
              cases ha : Moving.loadAll venv fs l2 { w with tuf := t } map with
              | mk r y =>
                obtain ⟨l3, w3⟩ := y
                rw [ha] at h
                cases r with
                | error e => cases h
                | ok items' =>
                  cases h
                  obtain ⟨⟨e1, rfl, he1⟩, hn, hnamed, hk⟩ := moving_inputMap hm
                  obtain ⟨hcfg, e2, rfl, rfl⟩ := moving_getTrustConfig hc
                  obtain ⟨hitems, e3, rfl, he3⟩ := moving_loadAll ha
                  have hroot : root = config.root := by
                    unfold LoadedConfig.trustedRoot at hr
                    split at hr
                    · exact (Except.ok.inj hr).symm
                    · cases hr
                  subst hroot
                  obtain ⟨certs, hcerts, hveq⟩ : ∃ certs, getFulcioCerts now config.root = .ok certs ∧ v = ⟨config.root, certs⟩ := by
                    unfold Verifier.init at hv
                    cases hg : getFulcioCerts now config.root with
                    | error e => rw [hg] at hv; cases hv
                    | ok certs =>
                      rw [hg] at hv
                      dsimp only at hv
                      split at hv
                      · cases hv
                      · exact ⟨certs, rfl, (Except.ok.inj hv).symm⟩
                  refine ⟨map, config, certs, hk, hn, hnamed, ⟨(l ++ e1).length, hcfg, ?_⟩, hcerts, hveq, hitems,
                    e1 ++ (args.trust.trustConfig.toList.map Moving.Access.read ++ e3), by simp, ?_⟩
                  · intro p hp
                    refine log_mono ?_
                    rw [hp]
                    simp
                  · rw [filesRead_append, filesRead_append, he1, filesRead_reads, he3]
                    rfl

/-- **C125** Whatever others do to files while `sigstore verify` runs: if it succeeds then it read the trust configuration (if it is
a file), each input and its materials exactly once, and it verified what it read of each input with the materials that it read. -/
theorem C125_reads (venv : VerifyEnv) (fs : Nat → Fs) (now : Time) (cmd : VerifyCommand) (verbose : Bool) (positional : List Str)
    (certificate signature bundle : Option Path) (trust : TrustArgs) (w w' : VerifyWorld) (log : List Moving.Access)
    (h : Moving.verifyMain venv fs now cmd verbose positional certificate signature bundle trust w = (.ok (), log, w')) :
    ∃ (inputs : List VerifyInput) (map : List (VerifyInput × Materials)) (config : LoadedConfig) (policy : Policy.Policy)
      (certs : List Cert), positional ≠ [] ∧
      List.Forall₂ (fun arg i => ∃ n, log[n]? = some (.test (Path.ofStr arg)) ∧ ArgDenotes (fs n) arg i) positional inputs ∧
      (∀ i, i ∈ map.map Prod.fst ↔ i ∈ inputs) ∧ (map.map Prod.fst).Nodup ∧
      FilesRead log = trust.trustConfig.toList ++ map.flatMap FilesOf ∧
      (∃ n, (getTrustConfig (fs n) venv.tuf venv.parsers trust w.tuf).1 = .ok config ∧
        ∀ p, trust.trustConfig = some p → log[n]? = some (.read p)) ∧
      cmd.policy = .ok policy ∧ getFulcioCerts now config.root = .ok certs ∧
      ∀ x ∈ map, NamedMaterials certificate signature bundle x.1 x.2 ∧ ∃ d b, DigestRead venv.env.crypto fs log x.1 d ∧
        BundleRead venv fs log d x.2 b ∧ Accepted venv now ⟨config.root, certs⟩ policy.verify (PrintsText cmd) d b := by
  unfold Moving.verifyMain at h
  cases hpos : positional with
  | nil => rw [hpos] at h; cases h
  | cons a as =>
    rw [hpos] at h
    dsimp only at h
    cases hp : Moving.parseInputs fs [] (a :: as) with
    | mk r l1 =>
      rw [hp] at h
      cases r with
      | error e => cases h
      | ok inputs =>
        dsimp only at h
        cases hc : Moving.verifyCommand venv fs now cmd verbose ⟨inputs, certificate, signature, bundle, trust⟩ l1 w with
        | mk r y =>
          obtain ⟨l2, w2⟩ := y
          rw [hc] at h
          dsimp only at h
          rw [Prod.mk.injEq, Prod.mk.injEq] at h
          obtain ⟨hr, rfl, rfl⟩ := h
          have hr : r = .ok () := by
            cases r with
            | ok u => rfl
            | error e =>
              rw [mainHandler] at hr
              split at hr <;> cases hr
          subst hr
          obtain ⟨⟨e0, rfl, he0⟩, hden⟩ := moving_parseInputs hp
          unfold Moving.verifyCommand at hc
          cases hpol : cmd.policy with
          | error e => rw [hpol] at hc; cases hc
          | ok policy =>
            rw [hpol] at hc
            dsimp only at hc
            cases hs : Moving.collectState venv fs now ⟨inputs, certificate, signature, bundle, trust⟩ l1 w with
            | mk r y =>
              obtain ⟨l3, w3⟩ := y
              rw [hs] at hc
              cases r with
              | error e => cases hc
              | ok vi =>
                obtain ⟨v, items⟩ := vi
                dsimp only at hc
                rw [Prod.mk.injEq, Prod.mk.injEq] at hc
                obtain ⟨hloop, rfl, rfl⟩ := hc
                obtain ⟨map, config, certs, hk, hn, hnamed, hcfg, hcerts, rfl, hitems, e, rfl, he⟩ := moving_collectState hs
                refine ⟨inputs, map, config, policy, certs, by simp, ?_, hk, hn, ?_, hcfg, rfl, hcerts, ?_⟩
                · exact hden.imp fun _ _ ⟨n, h1, h2⟩ => ⟨n, log_mono h1, h2⟩
                · rw [filesRead_append, he0, he]
                  rfl
                · intro x hx
                  obtain ⟨y, hy, hy1, hy2, hy3⟩ := forall₂_mem_left hitems x hx
                  refine ⟨hnamed x hx, y.2.1, y.2.2, hy2, hy3, ?_⟩
                  have := (verifyLoop_iff venv now _ policy.verify cmd.decodes verbose items).1 hloop y hy
                  cases cmd <;> exact this

/-! ## Files that do not change -/

section Static

variable (fs : Fs)

theorem static_isFile (l : List Moving.Access) (p : Path) : Moving.isFile (fun _ => fs) l p = (fs.isFile p, l ++ [.test p]) := rfl

theorem static_parseInputs (as : List Str) : ∀ l, (Moving.parseInputs (fun _ => fs) l as).1 = parseInputs fs as := by
  induction as with
  | nil => intro l; rfl
  | cons a as ih =>
    intro l
    rw [Moving.parseInputs.eq_def, parseInputs]
    dsimp only [Moving.fileOrDigest]
    cases Cli.fileOrDigest fs a with
    | error e => rfl
    | ok i =>
      dsimp only
      rw [← ih (l ++ [.test (Path.ofStr a)])]
      cases Moving.parseInputs (fun _ => fs) (l ++ [.test (Path.ofStr a)]) as with
      | mk r l1 => cases r <;> rfl

theorem static_defaultBundle (l : List Moving.Access) (file sig cert : Path) :
    (Moving.defaultBundle (fun _ => fs) l file sig cert).1 = defaultBundle fs file := by
  unfold Moving.defaultBundle defaultBundle
  simp only [static_isFile]
  cases fs.isFile (sibling file ".sigstore.json".toList) <;> cases fs.isFile (sibling file ".sigstore".toList) <;>
    cases fs.isFile cert <;> rfl

theorem static_fileMaterials (args : VerifyArgs) (l : List Moving.Access) (file : Path) :
    (Moving.fileMaterials (fun _ => fs) args l file).1 = fileMaterials fs args file := by
  unfold Moving.fileMaterials fileMaterials
  simp only [static_isFile]
  cases fs.isFile file with
  | false => rfl
  | true =>
    dsimp only
    rw [if_neg (by decide)]
    cases args.bundle with
    | some b =>
      dsimp only
      split
      · rfl
      · rfl
    | none =>
      dsimp only
      rw [← static_defaultBundle fs (l ++ [.test file]) file (args.signature.getD (sibling file ".sig".toList))
        (args.certificate.getD (sibling file ".crt".toList))]
      cases Moving.defaultBundle (fun _ => fs) (l ++ [.test file]) file (args.signature.getD (sibling file ".sig".toList))
        (args.certificate.getD (sibling file ".crt".toList)) with
      | mk r l1 =>
        cases r with
        | error e => rfl
        | ok b =>
          dsimp only
          split
          · rfl
          · rfl

theorem static_fileLoop (args : VerifyArgs) (is : List VerifyInput) :
    ∀ map l, (Moving.fileLoop (fun _ => fs) args map l is).1 = fileLoop fs args map is := by
  induction is with
  | nil => intro map l; rfl
  | cons i is ih =>
    intro map l
    cases i with
    | digest d => rw [Moving.fileLoop, fileLoop, ih]
    | file p =>
      rw [Moving.fileLoop, fileLoop, ← static_fileMaterials fs args l p]
      cases Moving.fileMaterials (fun _ => fs) args l p with
      | mk r l1 =>
        cases r with
        | error e => rfl
        | ok m => exact ih _ _

theorem static_digestMaterials (args : VerifyArgs) (l : List Moving.Access) :
    (Moving.digestMaterials (fun _ => fs) args l).1 = digestMaterials fs args := by
  unfold Moving.digestMaterials digestMaterials
  simp only [static_isFile]
  cases args.signature <;> cases args.certificate <;> cases args.bundle <;> rfl

theorem static_inputMap (args : VerifyArgs) (l : List Moving.Access) :
    (Moving.inputMap (fun _ => fs) args l).1 = inputMap fs args := by
  unfold Moving.inputMap inputMap
  dsimp only
  rw [← static_fileLoop fs args args.inputs [] l]
  split
  · rfl
  split
  · rfl
  split
  · rfl
  split
  · rfl
  cases Moving.fileLoop (fun _ => fs) args [] l args.inputs with
  | mk r l1 =>
    cases r with
    | error e => rfl
    | ok map =>
      cases map with
      | cons x xs => rfl
      | nil =>
        dsimp only
        rw [← static_digestMaterials fs args l1]
        cases Moving.digestMaterials (fun _ => fs) args l1 with
        | mk r l2 =>
          generalize args.inputs = is
          cases is with
          | nil => rfl
          | cons x is => cases is <;> cases r <;> rfl

theorem static_loadMaterials (venv : VerifyEnv) (d : Hashed) (l : List Moving.Access) (w : VerifyWorld) (m : Materials) :
    ((Moving.loadMaterials venv (fun _ => fs) d l w m).1, (Moving.loadMaterials venv (fun _ => fs) d l w m).2.2) =
      loadMaterials venv fs d w m := by
  cases m with
  | bundled p => rw [Moving.loadMaterials]
  | unbundled cp sp =>
    rw [Moving.loadMaterials, loadMaterials]
    cases fs.read cp with
    | error e => rfl
    | ok pem =>
      dsimp only
      cases venv.loadPem pem with
      | none => rfl
      | some cert =>
        dsimp only
        cases readText fs sp with
        | error e => rfl
        | ok text =>
          dsimp only
          cases b64Decode text with
          | error e => rfl
          | ok sig =>
            dsimp only
            cases hashedrekordFromParts cert sig d with
            | error e => rfl
            | ok body =>
              dsimp only
              cases venv.retrieve body with
              | error e => rfl
              | ok x => cases x <;> rfl

theorem static_loadAll (venv : VerifyEnv) (map : Dict VerifyInput Materials) : ∀ l w,
    ((Moving.loadAll venv (fun _ => fs) l w map).1, (Moving.loadAll venv (fun _ => fs) l w map).2.2) = loadAll venv fs w map := by
  induction map with
  | nil => intro l w; rfl
  | cons x map ih =>
    obtain ⟨i, m⟩ := x
    intro l w
    rw [Moving.loadAll.eq_def, loadAll.eq_def]
    dsimp only [Moving.inputDigest]
    cases inputDigest venv.env.crypto fs i with
    | error e => rfl
    | ok d =>
      dsimp only
      generalize (l ++ match i with
        | .digest _ => []
        | .file p => [Moving.Access.read p]) = l1
      rw [← static_loadMaterials fs venv d l1 w m]
      cases Moving.loadMaterials venv (fun _ => fs) d l1 w m with
      | mk r y =>
        obtain ⟨l2, w2⟩ := y
        cases r with
        | error e => rfl
        | ok b =>
          dsimp only
          rw [← ih l2 w2]
          cases Moving.loadAll venv (fun _ => fs) l2 w2 map with
          | mk r y =>
            obtain ⟨l3, w3⟩ := y
            cases r <;> rfl

theorem static_collectState (venv : VerifyEnv) (now : Time) (args : VerifyArgs) (l : List Moving.Access) (w : VerifyWorld) :
    ((Moving.collectState venv (fun _ => fs) now args l w).1, (Moving.collectState venv (fun _ => fs) now args l w).2.2) =
      collectState venv fs now args w := by
  unfold Moving.collectState collectState
  rw [← static_inputMap fs args l]
  cases Moving.inputMap (fun _ => fs) args l with
  | mk r l1 =>
    cases r with
    | error e => rfl
    | ok map =>
      dsimp only [Moving.getTrustConfig]
      cases getTrustConfig fs venv.tuf venv.parsers args.trust w.tuf with
      | mk r t =>
        cases r with
        | error e => rfl
        | ok config =>
          dsimp only
          cases config.trustedRoot with
          | error e => rfl
          | ok root =>
            dsimp only
            cases Verifier.init now root with
            | error e => rfl
            | ok v =>
              dsimp only
              generalize (l1 ++ match trustSource args.trust with
                | .file p => [Moving.Access.read p]
                | .tuf _ => []) = l2
              rw [← static_loadAll fs venv map l2]
              cases Moving.loadAll venv (fun _ => fs) l2 { w with tuf := t } map with
              | mk r y =>
                obtain ⟨l3, w3⟩ := y
                cases r <;> rfl

/-- **C125** If files do not change, this is `sigstore verify` as it is modelled elsewhere. -/
theorem C125_static (venv : VerifyEnv) (now : Time) (cmd : VerifyCommand) (verbose : Bool) (positional : List Str)
    (certificate signature bundle : Option Path) (trust : TrustArgs) (w : VerifyWorld) :
    ((Moving.verifyMain venv (fun _ => fs) now cmd verbose positional certificate signature bundle trust w).1,
      (Moving.verifyMain venv (fun _ => fs) now cmd verbose positional certificate signature bundle trust w).2.2) =
      verifyMain venv fs now cmd verbose positional certificate signature bundle trust w := by
  cases positional with
  | nil => rfl
  | cons a as =>
    unfold Moving.verifyMain verifyMain
    dsimp only
    rw [← static_parseInputs fs (a :: as) []]
    cases Moving.parseInputs (fun _ => fs) [] (a :: as) with
    | mk r l1 =>
      cases r with
      | error e => rfl
      | ok inputs =>
        dsimp only
        unfold Moving.verifyCommand verifyCommand
        cases cmd.policy with
        | error e => rfl
        | ok policy =>
          dsimp only
          rw [← static_collectState fs venv now _ l1 w]
          cases Moving.collectState venv (fun _ => fs) now ⟨inputs, certificate, signature, bundle, trust⟩ l1 w with
          | mk r y =>
            obtain ⟨l3, w3⟩ := y
            cases r <;> rfl

end Static

/-! ## Exit status -/

section Status

variable {venv : VerifyEnv} {fs : Nat → Fs} (hl : ∀ n, LibrariesDoNotExit venv (fs n))

theorem moving_defaultBundle_nz (l l' : List Moving.Access) (file sig cert : Path) :
    Moving.defaultBundle fs l file sig cert = (.error (.systemExit 0), l') → False := by
  intro h
  unfold Moving.defaultBundle at h
  nzp [] h

theorem moving_fileMaterials_nz (args : VerifyArgs) (l l' : List Moving.Access) (p : Path) :
    Moving.fileMaterials fs args l p = (.error (.systemExit 0), l') → False := by
  intro h
  unfold Moving.fileMaterials at h
  cases hb : args.bundle <;> simp only [hb] at h <;> nzp [moving_defaultBundle_nz] h

theorem moving_fileLoop_nz (args : VerifyArgs) (is : List VerifyInput) :
    ∀ map l l', Moving.fileLoop fs args map l is = (.error (.systemExit 0), l') → False := by
  induction is with
  | nil => intro map l l' h; cases h
  | cons i is ih =>
    intro map l l' h
    cases i <;> rw [Moving.fileLoop] at h <;> nzp [ih, moving_fileMaterials_nz] h

theorem moving_digestMaterials_nz (args : VerifyArgs) (l l' : List Moving.Access) :
    Moving.digestMaterials fs args l = (.error (.systemExit 0), l') → False := by
  intro h
  unfold Moving.digestMaterials at h
  nzp [] h

theorem moving_inputMap_nz (args : VerifyArgs) (l l' : List Moving.Access) :
    Moving.inputMap fs args l = (.error (.systemExit 0), l') → False := by
  intro h
  unfold Moving.inputMap at h
  nzp [moving_fileLoop_nz, moving_digestMaterials_nz] h

theorem moving_parseInputs_nz (as : List Str) : ∀ l l', Moving.parseInputs fs l as = (.error (.systemExit 0), l') → False := by
  induction as with
  | nil => intro l l' h; cases h
  | cons a as ih => intro l l' h; rw [Moving.parseInputs.eq_def] at h; nzp [ih] h

include hl

theorem moving_loadMaterials_nz (d : Hashed) (l l' : List Moving.Access) (w w' : VerifyWorld) (m : Materials) :
    Moving.loadMaterials venv fs d l w m = (.error (.systemExit 0), l', w') → False := by
  intro h
  cases m with
  | bundled p =>
    rw [Moving.loadMaterials, Prod.mk.injEq] at h
    exact loadMaterials_nz (hl l.length) d w _ (.bundled p) (Prod.ext h.1 rfl)
  | unbundled cp sp =>
    have h1 := (hl l.length).read cp
    have h2 := readText_nz (hl (l ++ [Moving.Access.read cp]).length) sp
    have h3 := (hl 0).retrieve
    rw [Moving.loadMaterials] at h
    nzp [h1, h2, h3, NoExit.b64Decode, NoExit.hashedrekordFromParts, NoExit.fromSignature] h

theorem moving_loadAll_nz (map : Dict VerifyInput Materials) :
    ∀ l l' w w', Moving.loadAll venv fs l w map = (.error (.systemExit 0), l', w') → False := by
  induction map with
  | nil => intro l l' w w' h; cases h
  | cons x map ih =>
    obtain ⟨i, m⟩ := x
    intro l l' w w' h
    have h1 := inputDigest_nz (hl l.length) venv.env.crypto i
    rw [Moving.loadAll.eq_def] at h
    dsimp only [Moving.inputDigest] at h
    cases hd : Cli.inputDigest venv.env.crypto (fs l.length) i with
    | error e => rw [hd] at h h1; cases h; exact h1 rfl
    | ok d =>
      rw [hd] at h
      dsimp only at h
      split at h
      · rename_i he; cases h; exact moving_loadMaterials_nz hl _ _ _ _ _ _ he
      · split at h
        · rename_i he; cases h; exact ih _ _ _ _ he
        · cases h

theorem moving_collectState_nz (now : Time) (args : VerifyArgs) (l l' : List Moving.Access) (w w' : VerifyWorld) :
    Moving.collectState venv fs now args l w = (.error (.systemExit 0), l', w') → False := by
  intro h
  unfold Moving.collectState at h
  split at h
  · rename_i e l1 hm
    cases h
    exact moving_inputMap_nz _ _ _ hm
  · rename_i map l1 hm
    have h1 := getTrustConfig_nz (hl l1.length) args.trust w.tuf
    dsimp only [Moving.getTrustConfig] at h
    cases hc : getTrustConfig (fs l1.length) venv.tuf venv.parsers args.trust w.tuf with
    | mk r t =>
      rw [hc] at h
      cases r with
      | error e => cases h; exact h1 _ hc
      | ok config =>
        dsimp only at h
        nzp [trustedRoot_nz, verifierInit_nz, moving_loadAll_nz hl] h

/-- exit status 0 is success -/
theorem moving_exit_zero {now : Time} {cmd : VerifyCommand} {verbose : Bool} {positional : List Str}
    {certificate signature bundle : Option Path} {trust : TrustArgs} {w : VerifyWorld}
    (h : exitStatus (Moving.verifyMain venv fs now cmd verbose positional certificate signature bundle trust w).1 = 0) :
    (Moving.verifyMain venv fs now cmd verbose positional certificate signature bundle trust w).1 = .ok () := by
  cases hr : (Moving.verifyMain venv fs now cmd verbose positional certificate signature bundle trust w).1 with
  | ok u => rfl
  | error e =>
    rw [hr] at h
    exfalso
    have hz : e = .systemExit 0 := by
      cases e <;> simp [exitStatus] at h
      next n => subst h; rfl
    subst hz
    unfold Moving.verifyMain at hr
    split at hr
    · cases hr
    · split at hr
      · rename_i e l1 he
        cases hr
        exact moving_parseInputs_nz _ _ _ he
      · rename_i inputs l1 hi
        dsimp only at hr
        cases hc : Moving.verifyCommand venv fs now cmd verbose ⟨inputs, certificate, signature, bundle, trust⟩ l1 w with
        | mk r y =>
          rw [hc] at hr
          dsimp only at hr
          cases r with
          | ok u => cases hr
          | error e =>
            rw [mainHandler] at hr
            have he : e = .systemExit 0 := by
              split at hr
              · exact logAndExit_nz _ _ (Except.error.inj hr)
              · exact Except.error.inj hr
            subst he
            unfold Moving.verifyCommand at hc
            split at hc
            · rename_i e he
              cases hc
              exact NoExit.commandPolicyError cmd he
            · rename_i p hp
              split at hc
              · rename_i e l2 w2 he
                cases hc
                exact moving_collectState_nz hl _ _ _ _ _ _ he
              · rw [Prod.mk.injEq] at hc
                exact verifyLoop_nz now _ p.verify _ _ (fun cert => NoExit.commandPolicy cmd p hp cert) _ hc.1

end Status

/-- **C125** If `sigstore verify` exits with status 0, and a file among its arguments kept its content during the run, then this
content was verified, whatever others did to all other files, in particular to the bundles and to the trust configuration. -/
theorem C125_unchanged (venv : VerifyEnv) (fs : Nat → Fs) (hl : ∀ n, LibrariesDoNotExit venv (fs n)) (now : Time)
    (cmd : VerifyCommand) (verbose : Bool) (positional : List Str) (certificate signature bundle : Option Path) (trust : TrustArgs)
    (w : VerifyWorld)
    (h : exitStatus (Moving.verifyMain venv fs now cmd verbose positional certificate signature bundle trust w).1 = 0)
    (arg : Str) (harg : arg ∈ positional) (content : Bytes)
    (hfile : ∀ n, (fs n).isFile (Path.ofStr arg) = true) (hread : ∀ n, (fs n).read (Path.ofStr arg) = .ok content) :
    ∃ (n : Nat) (config : LoadedConfig) (policy : Policy.Policy) (certs : List Cert) (b : Bundle),
      (getTrustConfig (fs n) venv.tuf venv.parsers trust w.tuf).1 = .ok config ∧ cmd.policy = .ok policy ∧
      getFulcioCerts now config.root = .ok certs ∧
      Accepted venv now ⟨config.root, certs⟩ policy.verify (PrintsText cmd) ⟨.sha2_256, venv.env.crypto.sha256 content⟩ b := by
  have hok := moving_exit_zero hl h
  obtain ⟨inputs, map, config, policy, certs, _, hden, hk, _, _, ⟨n, hcfg, _⟩, hp, hcerts, hall⟩ :=
    C125_reads venv fs now cmd verbose positional certificate signature bundle trust w _ _ (Prod.ext hok rfl)
  obtain ⟨i, hi, m, _, hd⟩ := forall₂_mem_left hden arg harg
  obtain ⟨x, hx, rfl⟩ := List.mem_map.1 ((hk i).2 hi)
  obtain ⟨_, d, b, hdig, _, hacc⟩ := hall x hx
  obtain ⟨i, mat⟩ := x
  refine ⟨n, config, policy, certs, b, hcfg, hp, hcerts, ?_⟩
  cases hd with
  | digest hf _ => rw [hfile m] at hf; cases hf
  | file _ =>
    cases hdig with
    | file hr =>
      obtain ⟨k, _, hr⟩ := hr
      rw [hread k] at hr
      cases hr
      exact hacc

/-! ## A concrete run -/

/-- someone replaces the file `a` as soon as it was read -/
def exMovingFs (n : Nat) : Fs where
  isFile := exVerifyFs.isFile
  read p := if p = Path.ofStr "a".toList ∧ n > 7 then .ok [0x65, 0x76, 0x69, 0x6c] else exVerifyFs.read p

/-- `verify identity … a` still succeeds, having read the trust configuration, the file and its bundle, each once -/
example : (Moving.verifyMain exVerifyEnv exMovingFs 3000000000 (.identity "me".toList "https://i".toList) false ["a".toList]
      none none none ⟨some (Path.ofStr "t".toList), none, false, false, none⟩ ⟨exTufWorld, []⟩).1 = .ok () ∧
    FilesRead (Moving.verifyMain exVerifyEnv exMovingFs 3000000000 (.identity "me".toList "https://i".toList) false ["a".toList]
      none none none ⟨some (Path.ofStr "t".toList), none, false, false, none⟩ ⟨exTufWorld, []⟩).2.1 =
      [Path.ofStr "t".toList, Path.ofStr "a".toList, Path.ofStr "a.sigstore.json".toList] := by
  have hs := exVerified false
  rw [← C125_static] at hs
  have he : Moving.verifyMain exVerifyEnv exMovingFs 3000000000 (.identity "me".toList "https://i".toList) false ["a".toList]
      none none none ⟨some (Path.ofStr "t".toList), none, false, false, none⟩ ⟨exTufWorld, []⟩ =
    Moving.verifyMain exVerifyEnv (fun _ => exVerifyFs) 3000000000 (.identity "me".toList "https://i".toList) false ["a".toList]
      none none none ⟨some (Path.ofStr "t".toList), none, false, false, none⟩ ⟨exTufWorld, []⟩ := by
    rfl
  rw [he]
  exact ⟨moving_exit_zero (fun _ => exLibraries) hs, by rfl⟩

end Sigstore.Props
