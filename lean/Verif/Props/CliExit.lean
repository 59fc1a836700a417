import Verif.Props.CliVerify

/-!
# C44, C53, C69: when `sigstore verify` succeeds
-/

namespace Sigstore.Props

open Sigstore.Trust Sigstore.LogEntry Sigstore.Dsse Sigstore.Cli Sigstore.Tuf Sigstore.Spec

/-! ## Materials -/

theorem optionIsSome_iff {α : Type} (o : Option α) : o.isSome = true ↔ o ≠ none := by cases o <;> simp

theorem materials_unique {fs : Fs} {args : VerifyArgs} {i : VerifyInput} {m m' : Materials}
    (h : MaterialsFor fs args i m) (h' : MaterialsFor fs args i m') : m = m' := by
  cases h with
  | explicitBundle h1 h2 =>
    cases h' with
    | explicitBundle h3 h4 => rw [h1] at h3; rw [Option.some.inj h3]
    | foundBundle h3 => rw [h1] at h3; simp at h3
    | foundLegacy h3 => rw [h1] at h3; simp at h3
    | detachedFile h3 => rw [h1] at h3; simp at h3
    | detachedDigest h3 => rw [h1] at h3; simp at h3
  | foundBundle h1 h2 h3 h4 h5 =>
    cases h' with
    | explicitBundle h6 => rw [h1] at h6; simp at h6
    | foundBundle => rfl
    | foundLegacy _ _ _ h6 => rw [h4] at h6; simp at h6
    | detachedFile _ h6 => rcases h6 with h6 | h6 <;> contradiction
  | foundLegacy h1 h2 h3 h4 h5 =>
    cases h' with
    | explicitBundle h6 => rw [h1] at h6; simp at h6
    | foundBundle _ _ _ h6 => rw [h4] at h6; simp at h6
    | foundLegacy => rfl
    | detachedFile _ h6 => rcases h6 with h6 | h6 <;> contradiction
  | detachedFile h1 h2 =>
    cases h' with
    | explicitBundle h6 => rw [h1] at h6; simp at h6
    | foundBundle _ h6 h7 => rcases h2 with h2 | h2 <;> contradiction
    | foundLegacy _ h6 h7 => rcases h2 with h2 | h2 <;> contradiction
    | detachedFile => rfl
  | detachedDigest h1 h2 h3 =>
    cases h' with
    | explicitBundle h6 => rw [h1] at h6; simp at h6
    | detachedDigest _ h6 h7 => rw [h2] at h6; rw [h3] at h7; rw [Option.some.inj h6, Option.some.inj h7]

theorem fileMaterials_iff (fs : Fs) (args : VerifyArgs)
    (hx : args.bundle ≠ none → args.certificate = none ∧ args.signature = none) (p : Path) (m : Materials) :
    fileMaterials fs args p = .ok m ↔ fs.isFile p = true ∧ MaterialsFor fs args (.file p) m := by
  unfold fileMaterials
  cases hp : fs.isFile p with
  | false => simp
  | true =>
    simp only [Bool.not_true, Bool.false_eq_true, if_false, true_and]
    cases hb : args.bundle with
    | some b =>
      obtain ⟨hc, hs⟩ := hx (by simp [hb])
      dsimp only
      rw [hc, hs]
      simp only [Option.isSome_none, Bool.or_self, Bool.false_eq_true, if_false]
      constructor
      · intro h
        split at h
        · simp at h
        · rename_i hf
          rw [← Except.ok.inj h]
          exact .explicitBundle hb (by simpa using hf)
      · intro h
        cases h with
        | explicitBundle h1 h2 =>
          rw [hb] at h1
          obtain rfl := Option.some.inj h1
          rw [h2]; rfl
        | foundBundle h1 => rw [hb] at h1; simp at h1
        | foundLegacy h1 => rw [hb] at h1; simp at h1
        | detachedFile h1 => rw [hb] at h1; simp at h1
    | none =>
      dsimp only
      unfold defaultBundle
      dsimp only
      by_cases hd : args.signature.isSome = true ∨ args.certificate.isSome = true
      · have hd' : (args.signature.isSome || args.certificate.isSome) = true := by simpa using hd
        have hne : args.certificate ≠ none ∨ args.signature ≠ none := by
          rw [optionIsSome_iff, optionIsSome_iff] at hd; exact hd.symm
        constructor
        · intro h
          split at h
          · simp at h
          · rename_i bundle hbun
            rw [if_pos hd'] at h
            split at h
            · simp at h
            · rename_i hf
              rw [← Except.ok.inj h]
              have hf' : fs.isFile (args.signature.getD (sibling p ".sig".toList)) = true ∧
                  fs.isFile (args.certificate.getD (sibling p ".crt".toList)) = true := by simpa using hf
              refine .detachedFile hb hne ?_ hf'.2 hf'.1
              rintro ⟨h1, h2⟩
              change fs.isFile (sibling p ".sigstore.json".toList) = true at h1
              change fs.isFile (sibling p ".sigstore".toList) = true at h2
              rw [h1, h2] at hbun
              simp at hbun
        · intro h
          cases h with
          | explicitBundle h1 => rw [hb] at h1; simp at h1
          | foundBundle _ h1 h2 => rcases hne with h | h <;> contradiction
          | foundLegacy _ h1 h2 => rcases hne with h | h <;> contradiction
          | detachedFile _ _ h1 h2 h3 =>
            change ¬ (fs.isFile (sibling p ".sigstore.json".toList) = true ∧
              fs.isFile (sibling p ".sigstore".toList) = true) at h1
            change fs.isFile (args.certificate.getD (sibling p ".crt".toList)) = true at h2
            change fs.isFile (args.signature.getD (sibling p ".sig".toList)) = true at h3
            rw [h2, h3, hd']
            cases hj : fs.isFile (sibling p ".sigstore.json".toList) <;>
              cases hl : fs.isFile (sibling p ".sigstore".toList)
            · rfl
            · rfl
            · rfl
            · exact absurd ⟨hj, hl⟩ h1
      · have hd' : (args.signature.isSome || args.certificate.isSome) = false := by simpa using hd
        rw [hd']
        simp only [Bool.false_eq_true, if_false]
        have hc : args.certificate = none := by
          cases h : args.certificate with
          | none => rfl
          | some c => exact absurd (.inr (by simp [h])) hd
        have hs : args.signature = none := by
          cases h : args.signature with
          | none => rfl
          | some c => exact absurd (.inl (by simp [h])) hd
        cases hj : fs.isFile (sibling p ".sigstore.json".toList) <;> cases hl : fs.isFile (sibling p ".sigstore".toList)
        · simp only [Bool.not_false, Bool.and_false, Bool.false_eq_true, if_false, hj, reduceCtorEq, false_iff, if_true]
          intro h
          cases h with
          | explicitBundle h1 => rw [hb] at h1; simp at h1
          | foundBundle _ _ _ h1 => change fs.isFile (sibling p ".sigstore.json".toList) = true at h1; rw [hj] at h1; simp at h1
          | foundLegacy _ _ _ _ h1 => change fs.isFile (sibling p ".sigstore".toList) = true at h1; rw [hl] at h1; simp at h1
          | detachedFile _ h1 => rcases h1 with h1 | h1 <;> contradiction
        · simp only [Bool.not_false, Bool.and_true, if_true, hl, Bool.not_true, Bool.false_eq_true, if_false]
          constructor
          · intro h; rw [← Except.ok.inj h]; exact .foundLegacy hb hc hs hj hl
          · intro h; rw [materials_unique h (.foundLegacy hb hc hs hj hl)]; rfl
        · simp only [Bool.not_true, Bool.and_false, Bool.false_eq_true, if_false, hj]
          constructor
          · intro h; rw [← Except.ok.inj h]; exact .foundBundle hb hc hs hj hl
          · intro h; rw [materials_unique h (.foundBundle hb hc hs hj hl)]; rfl
        · simp only [Bool.not_true, Bool.and_true, Bool.false_eq_true, if_false, if_true, reduceCtorEq, false_iff]
          intro h
          cases h with
          | explicitBundle h1 => rw [hb] at h1; simp at h1
          | foundBundle _ _ _ _ h1 => change fs.isFile (sibling p ".sigstore".toList) = false at h1; rw [hl] at h1; simp at h1
          | foundLegacy _ _ _ h1 => change fs.isFile (sibling p ".sigstore.json".toList) = false at h1; rw [hj] at h1; simp at h1
          | detachedFile _ h1 => rcases h1 with h1 | h1 <;> contradiction

theorem digestMaterials_iff (fs : Fs) (args : VerifyArgs) (h : Hashed)
    (hx : args.bundle ≠ none → args.certificate = none ∧ args.signature = none)
    (hd : args.bundle ≠ none ∨ (args.certificate ≠ none ∧ args.signature ≠ none)) (m : Materials) :
    digestMaterials fs args = .ok m ↔ MaterialsFor fs args (.digest h) m := by
  unfold digestMaterials
  cases hb : args.bundle with
  | some b =>
    obtain ⟨hc, hs⟩ := hx (by simp [hb])
    rw [hc, hs]
    simp only [Option.isSome_none, Bool.or_self, Bool.false_eq_true, if_false]
    constructor
    · intro h
      split at h
      · simp at h
      · rename_i hf
        rw [← Except.ok.inj h]
        exact .explicitBundle hb (by simpa using hf)
    · intro h
      cases h with
      | explicitBundle h1 h2 =>
        rw [hb] at h1
        obtain rfl := Option.some.inj h1
        rw [h2]; rfl
      | detachedDigest h1 => rw [hb] at h1; simp at h1
  | none =>
    obtain ⟨hc, hs⟩ := hd.resolve_left (by simp [hb])
    obtain ⟨c, hc⟩ := Option.ne_none_iff_exists'.1 hc
    obtain ⟨s, hs⟩ := Option.ne_none_iff_exists'.1 hs
    rw [hc, hs]
    simp only [Option.isSome_some, Bool.or_self, if_true]
    constructor
    · intro h
      split at h
      · simp at h
      · rename_i hf
        have hf' : fs.isFile s = true ∧ fs.isFile c = true := by simpa using hf
        rw [← Except.ok.inj h]
        exact .detachedDigest hb hc hs hf'.2 hf'.1
    · intro h
      cases h with
      | explicitBundle h1 => rw [hb] at h1; simp at h1
      | detachedDigest h1 h2 h3 h4 h5 =>
        rw [hc] at h2; rw [hs] at h3
        obtain rfl := Option.some.inj h2
        obtain rfl := Option.some.inj h3
        rw [h4, h5]; rfl

/-- what the loop over the files leaves in the dictionary -/
theorem fileLoop_ok (fs : Fs) (args : VerifyArgs) : ∀ (inputs : List VerifyInput) (map map' : Dict VerifyInput Materials),
    map.keys.Nodup → fileLoop fs args map inputs = .ok map' →
    map'.keys.Nodup ∧ (∀ p, .file p ∈ inputs → ∃ m, fileMaterials fs args p = .ok m) ∧
    ∀ i m, map'.get? i = some m ↔ (∃ p, i = .file p ∧ i ∈ inputs ∧ fileMaterials fs args p = .ok m) ∨
      ((∀ p, i = .file p → i ∉ inputs) ∧ map.get? i = some m) := by
  intro inputs
  induction inputs with
  | nil =>
    intro map map' hn h
    rw [fileLoop] at h
    rw [← Except.ok.inj h]
    exact ⟨hn, by simp, by simp⟩
  | cons x inputs ih =>
    intro map map' hn h
    cases x with
    | digest d =>
      rw [fileLoop] at h
      obtain ⟨h1, h2, h3⟩ := ih map map' hn h
      refine ⟨h1, fun p hp => h2 p (by simpa using hp), fun i m => ?_⟩
      rw [h3]
      constructor
      · rintro (⟨p, rfl, h, h'⟩ | ⟨h, h'⟩)
        · exact .inl ⟨p, rfl, by simp [h], h'⟩
        · exact .inr ⟨fun p hp hm => h p hp (by subst hp; simpa using hm), h'⟩
      · rintro (⟨p, rfl, h, h'⟩ | ⟨h, h'⟩)
        · exact .inl ⟨p, rfl, by simpa using h, h'⟩
        · exact .inr ⟨fun p hp hm => h p hp (by simp [hm]), h'⟩
    | file q =>
      rw [fileLoop] at h
      cases hq : fileMaterials fs args q with
      | error e => rw [hq] at h; simp at h
      | ok mq =>
        rw [hq] at h
        obtain ⟨h1, h2, h3⟩ := ih _ map' (Dict.nodup_keys_set _ _ _ hn) h
        refine ⟨h1, ?_, ?_⟩
        · intro p hp
          rcases List.mem_cons.1 hp with hp | hp
          · obtain rfl : p = q := by simpa using hp
            exact ⟨mq, hq⟩
          · exact h2 p hp
        · intro i m
          rw [h3]
          by_cases hi : i = .file q
          · subst hi
            rw [Dict.get?_set_self]
            constructor
            · rintro (⟨p, hp, h, h'⟩ | ⟨h, h'⟩)
              · exact .inl ⟨p, hp, by simp, h'⟩
              · exact .inl ⟨q, rfl, by simp, by rw [hq, Option.some.inj h']⟩
            · rintro (⟨p, hp, h, h'⟩ | ⟨h, h'⟩)
              · obtain rfl : q = p := by simpa using hp
                by_cases hm : VerifyInput.file q ∈ inputs
                · exact .inl ⟨q, rfl, hm, h'⟩
                · refine .inr ⟨fun _ _ => hm, ?_⟩
                  rw [hq] at h'; rw [Except.ok.inj h']
              · exact absurd (by simp) (h q rfl)
          · rw [Dict.get?_set_ne _ _ (fun e => hi e.symm)]
            constructor
            · rintro (⟨p, hp, h, h'⟩ | ⟨h, h'⟩)
              · exact .inl ⟨p, hp, by simp [h], h'⟩
              · exact .inr ⟨fun p hp hm => h p hp ((List.mem_cons.1 hm).resolve_left hi), h'⟩
            · rintro (⟨p, hp, h, h'⟩ | ⟨h, h'⟩)
              · exact .inl ⟨p, hp, (List.mem_cons.1 h).resolve_left hi, h'⟩
              · exact .inr ⟨fun p hp hm => h p hp (by simp [hm]), h'⟩

theorem fileLoop_total (fs : Fs) (args : VerifyArgs) : ∀ (inputs : List VerifyInput) (map : Dict VerifyInput Materials),
    (∀ p, .file p ∈ inputs → ∃ m, fileMaterials fs args p = .ok m) → ∃ map', fileLoop fs args map inputs = .ok map' := by
  intro inputs
  induction inputs with
  | nil => intro map _; exact ⟨map, rfl⟩
  | cons x inputs ih =>
    intro map h
    cases x with
    | digest d => exact ih map fun p hp => h p (by simp [hp])
    | file q =>
      obtain ⟨m, hm⟩ := h q (by simp)
      rw [fileLoop, hm]
      exact ih _ fun p hp => h p (by simp [hp])

theorem isDigest_iff (i : VerifyInput) : i.isDigest = true ↔ ∃ h, i = .digest h := by
  cases i <;> simp [VerifyInput.isDigest]

/-- the checks on the options -/
theorem consistent_iff (args : VerifyArgs) :
    Consistent args ↔
      ((args.certificate.isSome || args.signature.isSome || args.bundle.isSome) && decide (args.inputs.length > 1)) = false ∧
      (args.bundle.isSome && (args.certificate.isSome || args.signature.isSome)) = false ∧
      (args.inputs.any VerifyInput.isDigest && (!args.bundle.isSome && !(args.certificate.isSome && args.signature.isSome))) =
        false ∧
      (args.trust.offline && (args.certificate.isSome || args.signature.isSome)) = false := by
  have hany : args.inputs.any VerifyInput.isDigest = true ↔ ∃ h, .digest h ∈ args.inputs := by
    rw [List.any_eq_true]
    constructor
    · rintro ⟨i, hi, hd⟩
      obtain ⟨h, rfl⟩ := (isDigest_iff i).1 hd
      exact ⟨h, hi⟩
    · rintro ⟨h, hi⟩
      exact ⟨_, hi, rfl⟩
  constructor
  · rintro ⟨h1, h2, h3, h4⟩
    refine ⟨?_, ?_, ?_, ?_⟩
    · cases hc : args.certificate <;> cases hs : args.signature <;> cases hb : args.bundle <;>
        simp [hc, hs, hb] at h1 ⊢ <;> exact h1
    · cases hc : args.certificate <;> cases hs : args.signature <;> cases hb : args.bundle <;>
        simp [hc, hs, hb] at h2 ⊢
    · cases ha : args.inputs.any VerifyInput.isDigest with
      | false => rfl
      | true =>
        obtain ⟨h, hh⟩ := hany.1 ha
        have := h3 h hh
        cases hc : args.certificate <;> cases hs : args.signature <;> cases hb : args.bundle <;>
          simp [hc, hs, hb] at this ⊢
    · cases ho : args.trust.offline with
      | false => rfl
      | true =>
        obtain ⟨hc, hs⟩ := h4 ho
        rw [hc, hs]; rfl
  · rintro ⟨h1, h2, h3, h4⟩
    refine ⟨?_, ?_, ?_, ?_⟩
    · intro h
      cases hc : args.certificate <;> cases hs : args.signature <;> cases hb : args.bundle <;>
        simp [hc, hs, hb] at h1 h ⊢ <;> exact h1
    · intro h
      cases hc : args.certificate <;> cases hs : args.signature <;> cases hb : args.bundle <;>
        simp [hc, hs, hb] at h2 h ⊢
    · intro h hh
      rw [hany.2 ⟨h, hh⟩] at h3
      cases hc : args.certificate <;> cases hs : args.signature <;> cases hb : args.bundle <;>
          simp [hc, hs, hb] at h3 ⊢
    · intro h
      rw [h] at h4
      cases hc : args.certificate <;> cases hs : args.signature <;>
        simp [hc, hs] at h4 ⊢

/-- the dictionary of inputs has exactly the inputs, with their materials -/
theorem inputMap_ok (fs : Fs) (args : VerifyArgs) (map : Dict VerifyInput Materials) (h : inputMap fs args = .ok map) :
    Consistent args ∧ args.inputs ≠ [] ∧ (∀ i ∈ args.inputs, ∃ m, (i, m) ∈ map) ∧
    (∀ i m, (i, m) ∈ map → i ∈ args.inputs ∧ MaterialsFor fs args i m) := by
  unfold inputMap at h
  dsimp only at h
  split at h
  · simp at h
  · rename_i c1
    split at h
    · simp at h
    · rename_i c2
      split at h
      · simp at h
      · rename_i c3
        split at h
        · simp at h
        · rename_i c4
          have hcons : Consistent args := (consistent_iff args).2 ⟨by simpa only [Bool.not_eq_true] using c1,
            by simpa only [Bool.not_eq_true] using c2, by simpa only [Bool.not_eq_true] using c3,
            by simpa only [Bool.not_eq_true] using c4⟩
          refine ⟨hcons, ?_⟩
          clear c1 c2 c3 c4
          cases hl : fileLoop fs args [] args.inputs with
          | error e => rw [hl] at h; simp at h
          | ok map0 =>
            obtain ⟨hn, hfiles, hget⟩ := fileLoop_ok fs args args.inputs [] map0 (by simp [Dict.keys]) hl
            rw [hl] at h
            cases map0 with
            | nil =>
              dsimp only at h
              split at h
              · rename_i input hi
                split at h
                · simp at h
                · rename_i m hm
                  have hmap := Except.ok.inj h
                  subst hmap
                  cases input with
                  | file p =>
                    obtain ⟨m', hm'⟩ := hfiles p (by simp [hi])
                    have := (hget (.file p) m').2 (.inl ⟨p, rfl, by simp [hi], hm'⟩)
                    simp [Dict.get?] at this
                  | digest d =>
                    have hd := hcons.digests d (by simp [hi])
                    have hmat := (digestMaterials_iff fs args d hcons.exclusive hd m).1 hm
                    rw [hi]
                    refine ⟨by simp, ?_, ?_⟩
                    · intro i hi'
                      obtain rfl : i = .digest d := by simpa using hi'
                      exact ⟨m, by simp⟩
                    · intro i m' hm'
                      obtain ⟨rfl, rfl⟩ : i = .digest d ∧ m' = m := by simpa using hm'
                      exact ⟨by simp, hmat⟩
              · simp at h
            | cons x xs =>
              have hmap := Except.ok.inj h
              subst hmap
              have hmem : ∀ i m, (i, m) ∈ x :: xs → ∃ p, i = .file p ∧ i ∈ args.inputs ∧ fileMaterials fs args p = .ok m := by
                intro i m hm
                rcases (hget i m).1 (Dict.get?_of_mem hn hm) with h | ⟨_, h⟩
                · exact h
                · simp [Dict.get?] at h
              have hnod : ∀ d, .digest d ∉ args.inputs := by
                intro d hd
                have hsingle : args.inputs.length ≤ 1 := hcons.single (by
                  rcases hcons.digests d hd with h | ⟨h, _⟩
                  · exact .inr (.inr h)
                  · exact .inl h)
                obtain ⟨p, hp, hpin, _⟩ := hmem x.1 x.2 (by simp)
                match hin : args.inputs with
                | [] => rw [hin] at hd; simp at hd
                | [y] =>
                  rw [hin] at hd hpin
                  have e1 : VerifyInput.digest d = y := by simpa using hd
                  have e2 : x.1 = y := by simpa using hpin
                  rw [hp] at e2; rw [← e1] at e2; simp at e2
                | _ :: _ :: _ => rw [hin] at hsingle; simp at hsingle
              refine ⟨?_, ?_, ?_⟩
              · obtain ⟨p, _, hpin, _⟩ := hmem x.1 x.2 (by simp)
                intro e; rw [e] at hpin; simp at hpin
              · intro i hi
                cases i with
                | digest d => exact absurd hi (hnod d)
                | file p =>
                  obtain ⟨m, hm⟩ := hfiles p hi
                  exact ⟨m, Dict.mem_of_get? ((hget _ _).2 (.inl ⟨p, rfl, hi, hm⟩))⟩
              · intro i m hm
                obtain ⟨p, rfl, hpin, hm⟩ := hmem i m hm
                exact ⟨hpin, ((fileMaterials_iff fs args hcons.exclusive p m).1 hm).2⟩

theorem inputMap_total (fs : Fs) (args : VerifyArgs) (hcons : Consistent args) (hne : args.inputs ≠ [])
    (hf : ∀ p, .file p ∈ args.inputs → fs.isFile p = true) (hm : ∀ i ∈ args.inputs, ∃ m, MaterialsFor fs args i m) :
    ∃ map, inputMap fs args = .ok map := by
  obtain ⟨c1, c2, c3, c4⟩ := (consistent_iff args).1 hcons
  obtain ⟨map', hmap⟩ := fileLoop_total fs args args.inputs [] (by
    intro p hp
    obtain ⟨m, h⟩ := hm _ hp
    exact ⟨m, (fileMaterials_iff fs args hcons.exclusive p m).2 ⟨hf p hp, h⟩⟩)
  unfold inputMap
  dsimp only
  rw [c1, c2, c3, c4, hmap]
  simp only [Bool.false_eq_true, if_false]
  obtain ⟨hn, hfiles, hget⟩ := fileLoop_ok fs args args.inputs [] map' (by simp [Dict.keys]) hmap
  cases map' with
  | cons x xs => exact ⟨_, rfl⟩
  | nil =>
    have hnof : ∀ p, .file p ∉ args.inputs := by
      intro p hp
      obtain ⟨m, h⟩ := hfiles p hp
      have := (hget (.file p) m).2 (.inl ⟨p, rfl, hp, h⟩)
      simp [Dict.get?] at this
    match hin : args.inputs with
    | [] => exact absurd hin hne
    | .file p :: _ => exact absurd (by simp [hin]) (hnof p)
    | .digest d :: rest =>
      have hd := hcons.digests d (by simp [hin])
      have hsingle : args.inputs.length ≤ 1 := hcons.single (by
        rcases hd with h | ⟨h, _⟩
        · exact .inr (.inr h)
        · exact .inl h)
      obtain rfl : rest = [] := by
        rw [hin] at hsingle
        cases rest with
        | nil => rfl
        | cons _ _ => simp at hsingle
      obtain ⟨m, h⟩ := hm (.digest d) (by simp [hin])
      dsimp only
      rw [(digestMaterials_iff fs args d hcons.exclusive hd m).2 h]
      exact ⟨_, rfl⟩

/-! ## Loading -/

theorem inputDigest_iff (c : Crypto) (fs : Fs) (i : VerifyInput) (h : Hashed) :
    inputDigest c fs i = .ok h ↔ DigestOf c fs i h := by
  cases i with
  | digest d =>
    constructor
    · intro e; rw [← Except.ok.inj e]; exact .digest
    · rintro ⟨⟩; rfl
  | file p =>
    rw [inputDigest]
    cases hr : fs.read p with
    | error e =>
      constructor
      · intro h; simp at h
      · rintro (_ | ⟨h⟩); rw [hr] at h; simp at h
    | ok b =>
      constructor
      · intro e; rw [← Except.ok.inj e]; exact .file hr
      · rintro (_ | ⟨h⟩)
        rw [hr] at h
        rw [← Except.ok.inj h]; rfl

theorem readText_iff (fs : Fs) (p : Path) (t : Str) : readText fs p = .ok t ↔ fs.read p = .ok (utf8 t) := by
  unfold readText
  cases hr : fs.read p with
  | error e => simp
  | ok b =>
    dsimp only
    cases hd : utf8Decode b with
    | none =>
      constructor
      · intro h; simp at h
      · intro h
        rw [Except.ok.inj h, utf8Decode_utf8] at hd
        simp at hd
    | some s =>
      have hb := (utf8Decode_eq_some_iff _ _).1 hd
      rw [hb]
      simp only [Except.ok.injEq]
      exact ⟨fun h => by rw [h], fun h => utf8_injective h⟩

theorem hashedrekordFromParts_iff (cert : Cert) (sig : Bytes) (h : Hashed) (b : HashedrekordBody) :
    hashedrekordFromParts cert sig h = .ok b ↔ h.algorithm = .sha2_256 ∧
      b = ⟨"0.0.1".toList, some (b64Encode sig), some (base64EncodePemCert cert), some ("sha256".toList, hexEncode h.digest)⟩ := by
  unfold hashedrekordFromParts
  split
  · rename_i ha
    simp only [Except.ok.injEq, ha, true_and]
    exact eq_comm
  · rename_i ha
    simp [ha]

theorem loadMaterials_iff (venv : VerifyEnv) (fs : Fs) (h : Hashed) (w : VerifyWorld) (m : Materials) (b : Bundle) :
    (loadMaterials venv fs h w m).1 = .ok b ↔ Loads venv fs h m b := by
  cases m with
  | bundled p =>
    rw [loadMaterials]
    constructor
    · intro e
      split at e
      · simp at e
      · rename_i bytes hb
        split at e
        · simp at e
        · rename_i msg hm
          exact .bundled hb hm e
    · intro e
      cases e with
      | bundled h1 h2 h3 =>
        rw [h1]; dsimp only
        rw [h2]; exact h3
  | unbundled cp sp =>
    rw [loadMaterials]
    constructor
    · intro e
      split at e
      · simp at e
      · rename_i pem h1
        split at e
        · simp at e
        · rename_i cert h2
          split at e
          · simp at e
          · rename_i text h3
            split at e
            · simp at e
            · rename_i sig h4
              split at e
              · simp at e
              · rename_i body h5
                obtain ⟨h5', rfl⟩ := (hashedrekordFromParts_iff _ _ _ _).1 h5
                dsimp only at e
                split at e
                · simp at e
                · simp at e
                · rename_i entry h6
                  exact .detached h1 h2 ((readText_iff _ _ _).1 h3) h4 h5' h6 e
    · intro e
      cases e with
      | detached h1 h2 h3 h4 h5 h6 h7 =>
        rename_i pem cert text sig entry
        rw [h1]; dsimp only
        rw [h2]; dsimp only
        rw [(readText_iff _ _ _).2 h3]; dsimp only
        rw [h4]; dsimp only
        rw [(hashedrekordFromParts_iff _ _ _ _).2 ⟨h5, rfl⟩]; dsimp only
        rw [h6]
        exact h7

/-- an item of the list of loaded materials -/
def ItemFor (venv : VerifyEnv) (fs : Fs) (x : VerifyInput × Materials) (y : VerifyInput × Hashed × Bundle) : Prop :=
  y.1 = x.1 ∧ DigestOf venv.env.crypto fs x.1 y.2.1 ∧ Loads venv fs y.2.1 x.2 y.2.2

theorem loadAll_iff (venv : VerifyEnv) (fs : Fs) : ∀ (map : Dict VerifyInput Materials) (w : VerifyWorld)
    (items : List (VerifyInput × Hashed × Bundle)),
    (loadAll venv fs w map).1 = .ok items ↔ List.Forall₂ (ItemFor venv fs) map items := by
  intro map
  induction map with
  | nil =>
    intro w items
    rw [loadAll]
    constructor
    · intro h; rw [← Except.ok.inj h]; exact .nil
    · rintro ⟨⟩; rfl
  | cons x rest ih =>
    intro w items
    obtain ⟨i, m⟩ := x
    rw [loadAll]
    constructor
    · intro e
      split at e
      · simp at e
      · rename_i h hh
        split at e
        · simp at e
        · rename_i b w1 hb
          split at e
          · simp at e
          · rename_i items' w2 hi
            rw [← Except.ok.inj e]
            refine .cons ⟨rfl, (inputDigest_iff _ _ _ _).1 hh, ?_⟩ ((ih w1 items').1 (by rw [hi]))
            exact (loadMaterials_iff venv fs h w m b).1 (by rw [hb])
    · intro e
      cases e with
      | cons h1 h2 =>
        rename_i y items'
        obtain ⟨j, h, b⟩ := y
        obtain ⟨rfl, h3, h4⟩ := h1
        rw [(inputDigest_iff _ _ _ _).2 h3]
        dsimp only
        have h5 := (loadMaterials_iff venv fs h w m b).2 h4
        cases hl : loadMaterials venv fs h w m with
        | mk r w1 =>
          rw [hl] at h5
          dsimp only at h5
          subst h5
          dsimp only
          have h6 := (ih w1 items').2 h2
          cases hl2 : loadAll venv fs w1 rest with
          | mk r w2 =>
            rw [hl2] at h6
            dsimp only at h6
            subst h6
            rfl

theorem forall₂_exists {α β : Type} {R : α → β → Prop} : ∀ {l : List α}, (∀ x ∈ l, ∃ y, R x y) → ∃ l', List.Forall₂ R l l' := by
  intro l
  induction l with
  | nil => intro _; exact ⟨[], .nil⟩
  | cons x l ih =>
    intro h
    obtain ⟨y, hy⟩ := h x (by simp)
    obtain ⟨l', hl⟩ := ih fun z hz => h z (by simp [hz])
    exact ⟨y :: l', .cons hy hl⟩

theorem forall₂_mem_left {α β : Type} {R : α → β → Prop} {l : List α} {l' : List β} (h : List.Forall₂ R l l') :
    ∀ x ∈ l, ∃ y ∈ l', R x y := by
  induction h with
  | nil => simp
  | cons h1 _ ih =>
    intro x hx
    rcases List.mem_cons.1 hx with rfl | hx
    · exact ⟨_, by simp, h1⟩
    · obtain ⟨y, hy, hr⟩ := ih x hx
      exact ⟨y, by simp [hy], hr⟩

theorem forall₂_mem_right {α β : Type} {R : α → β → Prop} {l : List α} {l' : List β} (h : List.Forall₂ R l l') :
    ∀ y ∈ l', ∃ x ∈ l, R x y := by
  induction h with
  | nil => simp
  | cons h1 _ ih =>
    intro y hy
    rcases List.mem_cons.1 hy with rfl | hy
    · exact ⟨_, by simp, h1⟩
    · obtain ⟨x, hx, hr⟩ := ih y hy
      exact ⟨x, by simp [hx], hr⟩

theorem digestOf_unique {c : Crypto} {fs : Fs} {i : VerifyInput} {h h' : Hashed} (e : DigestOf c fs i h)
    (e' : DigestOf c fs i h') : h = h' := by
  rw [← inputDigest_iff] at e e'
  rw [e] at e'
  exact Except.ok.inj e'

theorem loads_unique {venv : VerifyEnv} {fs : Fs} {h : Hashed} {m : Materials} {b b' : Bundle} (e : Loads venv fs h m b)
    (e' : Loads venv fs h m b') : b = b' := by
  have w : VerifyWorld := ⟨⟨fun _ => none, []⟩, []⟩
  rw [← loadMaterials_iff venv fs h w] at e e'
  rw [e] at e'
  exact Except.ok.inj e'

/-! ## C53 and the verification of one input -/

theorem anySubject_iff (s : Statement) (h : Hashed) :
    s.matchesDigest h = .ok true ↔ h.algorithm = .sha2_256 ∧ HasSubject s.inner h := C53_matches_iff s h

theorem verifyDsse_envelope {env : Env} {now : Time} {v : Verifier} {b : Bundle} {policy : Cert → Py Unit} {r : Str × Bytes}
    {e : EnvelopeMsg} (he : b.inner.dsseEnvelope = some e) (h : verifyDsse env now v b policy = .ok r) :
    ∃ sig, envelopeInit e = .ok sig := by
  obtain ⟨_, e', sig, h1, _, _, h2, h3, _⟩ := verifyDsse_parts (type_ := r.1) (payload := r.2) h
  rw [he] at h1
  obtain rfl := Option.some.inj h1
  refine ⟨sig, ?_⟩
  unfold envelopeInit
  rw [h2]
  dsimp only
  rw [if_neg h3]

/-- **C53** `_verify_common` returns a statement exactly if the bundle has an envelope which verifies and has the in-toto
payload type, its payload is that statement, and the statement has a subject whose `sha256` is the lower-case hex of the
digest. -/
theorem C53_attestation_iff (venv : VerifyEnv) (now : Time) (v : Verifier) (h : Hashed) (b : Bundle) (policy : Cert → Py Unit)
    (stmt : Statement) :
    verifyCommonCli venv now v h b policy = .ok (some stmt) ↔ b.inner.dsseEnvelope ≠ none ∧
      verifyDsse venv.env now v b policy = .ok ("application/vnd.in-toto+json".toList, stmt.contents) ∧
      venv.codec.parse stmt.contents = some stmt.inner ∧ h.algorithm = .sha2_256 ∧
      ∃ sub ∈ stmt.inner.subjects, Dict.get? sub.digest "sha256".toList = some (hexEncode h.digest) := by
  unfold verifyCommonCli
  cases he : b.inner.dsseEnvelope with
  | none =>
    dsimp only
    constructor
    · intro e; split at e <;> simp at e
    · rintro ⟨h1, _⟩; exact absurd rfl h1
  | some env =>
    dsimp only
    constructor
    · intro e
      refine ⟨by simp, ?_⟩
      split at e
      · simp at e
      · split at e
        · simp at e
        · rename_i type_ payload hv
          split at e
          · simp at e
          · rename_i ht
            split at e
            · simp at e
            · rename_i st hs
              have hst : ∃ inner, venv.codec.parse payload = some inner ∧ st = ⟨payload, inner⟩ := by
                unfold Statement.ofBytes at hs
                split at hs
                · simp at hs
                · rename_i inner hi; exact ⟨inner, hi, (Except.ok.inj hs).symm⟩
              obtain ⟨inner, hi, rfl⟩ := hst
              split at e
              · simp at e
              · simp at e
              · rename_i hm
                obtain rfl : ⟨payload, inner⟩ = stmt := by simpa using e
                obtain ⟨ha, hsub⟩ := (C53_matches_iff _ _).1 hm
                refine ⟨?_, hi, ha, hsub⟩
                rw [hv, Classical.not_not.1 ht]; rfl
    · rintro ⟨_, hv, hp, ha, hsub⟩
      obtain ⟨sig, hsig⟩ := verifyDsse_envelope he hv
      rw [hsig]; dsimp only
      rw [hv]; dsimp only
      rw [if_neg (fun hx => hx rfl)]
      unfold Statement.ofBytes
      rw [hp]; dsimp only
      rw [(C53_matches_iff ⟨stmt.contents, stmt.inner⟩ h).2 ⟨ha, hsub⟩]

/-- **C53** An attestation that verifies but is of another type, or has no subject with the digest of the input, is a failed
verification: a `VerificationError`, which the command reports, and no other exception. -/
theorem C53_mismatch (venv : VerifyEnv) (now : Time) (v : Verifier) (h : Hashed) (b : Bundle) (policy : Cert → Py Unit)
    (type_ : Str) (payload : Bytes) (he : b.inner.dsseEnvelope ≠ none) (hv : verifyDsse venv.env now v b policy = .ok (type_, payload)) :
    (type_ ≠ "application/vnd.in-toto+json".toList → verifyCommonCli venv now v h b policy = .error .verification) ∧
    (type_ = "application/vnd.in-toto+json".toList → ∀ inner, venv.codec.parse payload = some inner →
      ¬ (h.algorithm = .sha2_256 ∧ HasSubject inner h) → verifyCommonCli venv now v h b policy = .error .verification) := by
  obtain ⟨e, he⟩ := Option.ne_none_iff_exists'.1 he
  obtain ⟨sig, hsig⟩ := verifyDsse_envelope he hv
  unfold verifyCommonCli
  rw [he]
  dsimp only
  rw [hsig, hv]
  dsimp only
  refine ⟨fun ht => if_pos ht, ?_⟩
  rintro rfl inner hp hs
  rw [if_neg (fun hx => hx rfl)]
  unfold Statement.ofBytes
  rw [hp]
  dsimp only
  have hne : Statement.matchesDigest ⟨payload, inner⟩ h ≠ .ok true := fun hm => hs ((C53_matches_iff _ _).1 hm)
  cases hr : Statement.matchesDigest ⟨payload, inner⟩ h with
  | error x =>
    unfold Statement.matchesDigest at hr
    split at hr <;> cases hr; rfl
  | ok r =>
    rw [hr] at hne
    cases r with
    | false => rfl
    | true => exact absurd rfl hne

/-- `_verify_common` returns no statement exactly if the bundle has no envelope and the artifact verifies -/
theorem verifyCommonCli_artifact_iff (venv : VerifyEnv) (now : Time) (v : Verifier) (h : Hashed) (b : Bundle)
    (policy : Cert → Py Unit) :
    verifyCommonCli venv now v h b policy = .ok none ↔ b.inner.dsseEnvelope = none ∧
      verifyArtifact venv.env now v (.hashed h) b policy = .ok () := by
  unfold verifyCommonCli
  cases he : b.inner.dsseEnvelope with
  | none =>
    dsimp only
    simp only [true_and]
    cases verifyArtifact venv.env now v (.hashed h) b policy <;> simp
  | some env =>
    dsimp only
    simp only [reduceCtorEq, false_and, iff_false]
    intro e
    split at e
    · simp at e
    · split at e
      · simp at e
      · split at e
        · simp at e
        · split at e
          · simp at e
          · split at e <;> simp at e

theorem accepted_iff (venv : VerifyEnv) (now : Time) (v : Verifier) (policy : Cert → Py Unit) (decode : Bool) (h : Hashed)
    (b : Bundle) : Accepted venv now v policy decode h b ↔
      ∃ r, verifyCommonCli venv now v h b policy = .ok r ∧ printStatement decode r = .ok () := by
  unfold Accepted
  constructor
  · rintro (hx | ⟨h1, payload, inner, h2, h3, h4, h5, h6⟩)
    · exact ⟨none, (verifyCommonCli_artifact_iff _ _ _ _ _ _).2 hx, rfl⟩
    · refine ⟨some ⟨payload, inner⟩, (C53_attestation_iff _ _ _ _ _ _ _).2 ⟨h1, h2, h3, h4, h5⟩, ?_⟩
      unfold printStatement
      cases decode with
      | false => rfl
      | true =>
        obtain ⟨t, rfl⟩ := h6 rfl
        simp only [if_true, utf8Decode_utf8]
  · rintro ⟨r, h1, h2⟩
    cases r with
    | none => exact .inl ((verifyCommonCli_artifact_iff _ _ _ _ _ _).1 h1)
    | some st =>
      obtain ⟨g1, g2, g3, g4, g5⟩ := (C53_attestation_iff _ _ _ _ _ _ _).1 h1
      refine .inr ⟨g1, st.contents, st.inner, g2, g3, g4, g5, ?_⟩
      rintro rfl
      unfold printStatement at h2
      simp only [if_true] at h2
      split at h2
      · simp at h2
      · rename_i t ht
        exact ⟨t, (utf8Decode_eq_some_iff _ _).1 ht⟩

theorem verifyLoop_iff (venv : VerifyEnv) (now : Time) (v : Verifier) (policy : Cert → Py Unit) (decode verbose : Bool) :
    ∀ items, verifyLoop venv now v policy decode verbose items = .ok () ↔
      ∀ x ∈ items, Accepted venv now v policy decode x.2.1 x.2.2 := by
  intro items
  induction items with
  | nil => simp [verifyLoop]
  | cons x items ih =>
    obtain ⟨i, h, b⟩ := x
    rw [verifyLoop]
    simp only [List.forall_mem_cons]
    rw [accepted_iff, ← ih]
    cases hv : verifyCommonCli venv now v h b policy with
    | error e =>
      dsimp only
      constructor
      · intro hx; split at hx <;> simp at hx
      · rintro ⟨⟨r, h1, _⟩, _⟩; simp at h1
    | ok r =>
      dsimp only
      cases hp : printStatement decode r with
      | error e =>
        dsimp only
        constructor
        · intro hx; simp at hx
        · rintro ⟨⟨r', h1, h2⟩, _⟩
          obtain rfl := Except.ok.inj h1
          rw [hp] at h2; simp at h2
      | ok u =>
        dsimp only
        constructor
        · intro hx; exact ⟨⟨r, rfl, hp⟩, hx⟩
        · exact fun hx => hx.2

/-! ## C44: the command -/

theorem parseInputs_iff (fs : Fs) : ∀ (as : List Str) (is : List VerifyInput),
    parseInputs fs as = .ok is ↔ List.Forall₂ (ArgDenotes fs) as is := by
  intro as
  induction as with
  | nil =>
    intro is
    rw [parseInputs]
    constructor
    · intro h; rw [← Except.ok.inj h]; exact .nil
    · rintro ⟨⟩; rfl
  | cons a as ih =>
    intro is
    rw [parseInputs]
    constructor
    · intro h
      split at h
      · simp at h
      · rename_i i hi
        split at h
        · simp at h
        · rename_i is' his
          rw [← Except.ok.inj h]
          exact .cons ((C45_argument_iff _ _ _).1 hi) ((ih _).1 his)
    · rintro (_ | ⟨h1, h2⟩)
      rw [(C45_argument_iff _ _ _).2 h1, (ih _).2 h2]

/-- what has to hold for `sigstore verify` to succeed, given the trust configuration -/
structure VerifySucceeds (venv : VerifyEnv) (fs : Fs) (now : Time) (cmd : VerifyCommand) (args : VerifyArgs)
    (config : LoadedConfig) : Prop where
  /-- the options fit together -/
  consistent : Consistent args
  /-- the trusted root has the known format and names a log -/
  rootType : config.rootMediaType = "application/vnd.dev.sigstore.trustedroot+json;version=0.1".toList
  logs : config.root.tlogs ≠ []
  /-- the command has a policy, the root has Fulcio certificates, and each input is verified with its own materials -/
  inputs : ∃ policy certs, cmd.policy = .ok policy ∧ getFulcioCerts now config.root = .ok certs ∧
    ∀ i ∈ args.inputs, InputVerified venv fs now args ⟨config.root, certs⟩ policy.verify (PrintsText cmd) i

theorem collectState_iff (venv : VerifyEnv) (fs : Fs) (now : Time) (args : VerifyArgs) (w : VerifyWorld) (v : Verifier)
    (items : List (VerifyInput × Hashed × Bundle)) :
    (collectState venv fs now args w).1 = .ok (v, items) ↔ ∃ map config,
      inputMap fs args = .ok map ∧ (getTrustConfig fs venv.tuf venv.parsers args.trust w.tuf).1 = .ok config ∧
      config.trustedRoot = .ok v.root ∧ Verifier.init now v.root = .ok v ∧ List.Forall₂ (ItemFor venv fs) map items := by
  unfold collectState
  constructor
  · intro h
    split at h
    · simp at h
    · rename_i map hmap
      split at h
      · simp at h
      · rename_i config t hcfg
        dsimp only at h
        split at h
        · simp at h
        · rename_i root hroot
          split at h
          · simp at h
          · rename_i v' hv'
            split at h
            · simp at h
            · rename_i items' w' hl
              obtain ⟨rfl, rfl⟩ := Prod.mk.inj (Except.ok.inj h)
              have hr : v'.root = root := by
                unfold Verifier.init at hv'
                split at hv'
                · simp at hv'
                · split at hv'
                  · simp at hv'
                  · rw [← Except.ok.inj hv']
              exact ⟨map, config, hmap, by rw [hcfg], by rw [hr, hroot], by rw [hr, hv'],
                (loadAll_iff venv fs map _ _).1 (by rw [hl])⟩
  · rintro ⟨map, config, h1, h2, h3, h4, h5⟩
    rw [h1]; dsimp only
    cases hcfg : getTrustConfig fs venv.tuf venv.parsers args.trust w.tuf with
    | mk r t =>
      rw [hcfg] at h2
      dsimp only at h2
      subst h2
      dsimp only
      rw [h3]; dsimp only
      rw [h4]; dsimp only
      have h6 := (loadAll_iff venv fs map { w with tuf := t } items).2 h5
      cases hl : loadAll venv fs { w with tuf := t } map with
      | mk r w' =>
        rw [hl] at h6
        dsimp only at h6
        subst h6
        rfl

theorem verifierInit_iff (now : Time) (root : TrustedRoot Cert) (v : Verifier) :
    Verifier.init now root = .ok v ↔ root.tlogs ≠ [] ∧ v.root = root ∧ getFulcioCerts now root = .ok v.fulcioCerts := by
  unfold Verifier.init
  cases hc : getFulcioCerts now root with
  | error e => simp
  | ok certs =>
    dsimp only
    cases ht : root.tlogs with
    | nil => simp
    | cons a l =>
      obtain ⟨r, f⟩ := v
      simp only [Except.ok.injEq, Verifier.mk.injEq, ne_eq, reduceCtorEq, not_false_eq_true, true_and]
      constructor
      · rintro ⟨rfl, rfl⟩; exact ⟨rfl, rfl⟩
      · rintro ⟨rfl, rfl⟩; exact ⟨rfl, rfl⟩

theorem trustedRoot_iff (c : LoadedConfig) (root : TrustedRoot Cert) :
    c.trustedRoot = .ok root ↔
      c.rootMediaType = "application/vnd.dev.sigstore.trustedroot+json;version=0.1".toList ∧ c.root = root := by
  unfold LoadedConfig.trustedRoot
  by_cases h : c.rootMediaType = Config.trustedRootMediaType
  · rw [if_pos h]
    constructor
    · intro e; exact ⟨h, Except.ok.inj e⟩
    · rintro ⟨_, rfl⟩; rfl
  · rw [if_neg h]
    constructor
    · intro e; simp at e
    · rintro ⟨h', _⟩; exact absurd h' h

/-- the verify command on converted arguments -/
theorem verifyCommand_iff (venv : VerifyEnv) (fs : Fs) (now : Time) (cmd : VerifyCommand) (verbose : Bool) (args : VerifyArgs)
    (w : VerifyWorld) (hne : args.inputs ≠ []) (hf : ∀ p, .file p ∈ args.inputs → fs.isFile p = true) :
    (verifyCommand venv fs now cmd verbose args w).1 = .ok () ↔
      ∃ config, (getTrustConfig fs venv.tuf venv.parsers args.trust w.tuf).1 = .ok config ∧
        VerifySucceeds venv fs now cmd args config := by
  have hdec : cmd.decodes = PrintsText cmd := by cases cmd <;> rfl
  unfold verifyCommand
  cases hp : cmd.policy with
  | error e =>
    dsimp only
    constructor
    · intro h; simp at h
    · rintro ⟨config, _, h⟩
      obtain ⟨policy, _, h1, _⟩ := h.inputs
      rw [hp] at h1; simp at h1
  | ok policy =>
    dsimp only
    rw [hdec]
    constructor
    · intro h
      cases hcs : collectState venv fs now args w with
      | mk r w' =>
        rw [hcs] at h
        cases r with
        | error e => simp at h
        | ok r =>
          obtain ⟨v, items⟩ := r
          dsimp only at h
          rw [verifyLoop_iff] at h
          obtain ⟨map, config, h1, h2, h3, h4, h5⟩ := (collectState_iff venv fs now args w v items).1 (by rw [hcs])
          obtain ⟨hcons, _, hall, hmat⟩ := inputMap_ok fs args map h1
          obtain ⟨h6, h7⟩ := (trustedRoot_iff _ _).1 h3
          obtain ⟨h8, _, h9⟩ := (verifierInit_iff _ _ _).1 h4
          refine ⟨config, h2, hcons, h6, by rw [h7]; exact h8, policy, v.fulcioCerts, hp, by rw [h7]; exact h9, ?_⟩
          intro i hi
          obtain ⟨m, hm⟩ := hall i hi
          obtain ⟨y, hy, hy1, hy2, hy3⟩ := forall₂_mem_left h5 (i, m) hm
          refine ⟨m, y.2.1, y.2.2, (hmat i m hm).2, hy2, hy3, ?_⟩
          have := h y hy
          rw [h7]
          exact this
    · rintro ⟨config, hcfg, hcons, hmt, hlogs, policy', certs, hp', hcerts, hver⟩
      rw [hp] at hp'
      obtain rfl := Except.ok.inj hp'
      obtain ⟨map, hmap⟩ := inputMap_total fs args hcons hne hf fun i hi => by
        obtain ⟨m, _, _, h, _⟩ := hver i hi
        exact ⟨m, h⟩
      obtain ⟨_, _, _, hmat⟩ := inputMap_ok fs args map hmap
      have hitems : ∀ x ∈ map, ∃ y, ItemFor venv fs x y ∧
          Accepted venv now ⟨config.root, certs⟩ policy.verify (PrintsText cmd) y.2.1 y.2.2 := by
        rintro ⟨i, m⟩ hx
        obtain ⟨hi, hm⟩ := hmat i m hx
        obtain ⟨m', h, b, h1, h2, h3, h4⟩ := hver i hi
        obtain rfl := materials_unique hm h1
        exact ⟨(i, h, b), ⟨rfl, h2, h3⟩, h4⟩
      obtain ⟨items, hi⟩ := forall₂_exists hitems
      have hf2 : List.Forall₂ (ItemFor venv fs) map items := hi.imp fun _ _ h => h.1
      have hacc : ∀ y ∈ items, Accepted venv now ⟨config.root, certs⟩ policy.verify (PrintsText cmd) y.2.1 y.2.2 := by
        intro y hy
        obtain ⟨_, _, h⟩ := forall₂_mem_right hi y hy
        exact h.2
      have hcs := (collectState_iff venv fs now args w ⟨config.root, certs⟩ items).2
        ⟨map, config, hmap, hcfg, (trustedRoot_iff _ _).2 ⟨hmt, rfl⟩, (verifierInit_iff _ _ _).2 ⟨hlogs, rfl, hcerts⟩, hf2⟩
      cases hc : collectState venv fs now args w with
      | mk r w' =>
        rw [hc] at hcs
        dsimp only at hcs
        subst hcs
        dsimp only
        exact (verifyLoop_iff _ _ _ _ _ _ _).2 hacc

/-- **C44** `sigstore verify` returns normally exactly if there is at least one argument, every argument stands for an input,
the options fit together, the trust configuration loads, and every single input is verified, with the materials that belong
to it, under the policy of the command. -/
theorem C44_returns_iff (venv : VerifyEnv) (fs : Fs) (now : Time) (cmd : VerifyCommand) (verbose : Bool) (positional : List Str)
    (certificate signature bundle : Option Path) (trust : TrustArgs) (w : VerifyWorld) :
    (verifyMain venv fs now cmd verbose positional certificate signature bundle trust w).1 = .ok () ↔
      positional ≠ [] ∧ ∃ inputs config, List.Forall₂ (ArgDenotes fs) positional inputs ∧
        (getTrustConfig fs venv.tuf venv.parsers trust w.tuf).1 = .ok config ∧
        VerifySucceeds venv fs now cmd ⟨inputs, certificate, signature, bundle, trust⟩ config := by
  have hfiles : ∀ inputs, List.Forall₂ (ArgDenotes fs) positional inputs → ∀ p, .file p ∈ inputs → fs.isFile p = true := by
    intro inputs h p hp
    obtain ⟨a, _, ha⟩ := forall₂_mem_right h _ hp
    cases ha with
    | file hf => exact hf
  have hmain : ∀ r : Py Unit, mainHandler verbose r = .ok () ↔ r = .ok () := by
    intro r
    cases r with
    | ok u => exact Iff.rfl
    | error e =>
      rw [mainHandler]
      split <;> simp
  unfold verifyMain
  cases hpos : positional with
  | nil => simp
  | cons a as =>
    dsimp only
    rw [← hpos]
    simp only [ne_eq, hpos, reduceCtorEq, not_false_eq_true, true_and]
    rw [← hpos]
    constructor
    · intro h
      split at h
      · simp at h
      · rename_i inputs hin
        have hd := (parseInputs_iff _ _ _).1 hin
        have hr := (hmain _).1 h
        have hne : inputs ≠ [] := by
          rintro rfl
          cases hd
          simp at hpos
        obtain ⟨config, h1, h2⟩ := (verifyCommand_iff venv fs now cmd verbose ⟨inputs, certificate, signature, bundle, trust⟩ w
          hne (hfiles _ hd)).1 hr
        exact ⟨inputs, config, hd, h1, h2⟩
    · rintro ⟨inputs, config, hd, h1, h2⟩
      have hne : inputs ≠ [] := by
        rintro rfl
        cases hd
        simp at hpos
      have h3 := (verifyCommand_iff venv fs now cmd verbose ⟨inputs, certificate, signature, bundle, trust⟩ w hne
        (hfiles _ hd)).2 ⟨config, h1, h2⟩
      rw [(parseInputs_iff _ _ _).2 hd]
      dsimp only
      cases hr : verifyCommand venv fs now cmd verbose ⟨inputs, certificate, signature, bundle, trust⟩ w with
      | mk r w' =>
        rw [hr] at h3
        dsimp only at h3
        subst h3
        rfl

end Sigstore.Props
