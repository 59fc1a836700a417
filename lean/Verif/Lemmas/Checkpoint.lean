import Verif.Model.LogEntry
import Verif.Spec.SignedNote

/-!
# Lemmas about signed notes
-/

namespace Sigstore.Checkpoint

open Sigstore.Spec Sigstore.Trust

/-! ## Separator -/

theorem countSep_cons_ne {c : Char} (h : c ≠ '\n') (s : Str) : countSep (c :: s) = countSep s := by
  cases s with
  | nil => rfl
  | cons d s => rw [countSep, if_neg (fun h' => h h'.1)]

theorem countSep_nl_ne {d : Char} (h : d ≠ '\n') (s : Str) :
    countSep ('\n' :: d :: s) = countSep (d :: s) := by
  rw [countSep, if_neg (fun h' => h h'.2)]

theorem countSep_line (l s : Str) (h : '\n' ∉ l) : countSep (l ++ s) = countSep s := by
  induction l with
  | nil => rfl
  | cons c l ih =>
    rw [List.cons_append, countSep_cons_ne (fun e => h (by simp [e])), ih (fun hm => h (by simp [hm]))]

theorem splitSep_cons_ne {c : Char} (h : c ≠ '\n') (s : Str) :
    splitSep (c :: s) = (splitSep s).map fun p => (c :: p.1, p.2) := by
  cases s with
  | nil => rfl
  | cons d s => rw [splitSep, if_neg (fun h' => h h'.1)]

theorem splitSep_line (l s : Str) (h : '\n' ∉ l) :
    splitSep (l ++ s) = (splitSep s).map fun p => (l ++ p.1, p.2) := by
  induction l with
  | nil => simp
  | cons c l ih =>
    rw [List.cons_append, splitSep_cons_ne (fun e => h (by simp [e])), ih (fun hm => h (by simp [hm]))]
    cases splitSep s <;> simp

theorem exists_head_ne {l : Str} (h : l ≠ []) (hn : '\n' ∉ l) : ∃ d t, l = d :: t ∧ d ≠ '\n' := by
  obtain ⟨d, t, rfl⟩ := List.exists_cons_of_ne_nil h
  exact ⟨d, t, rfl, fun e => hn (by simp [e])⟩

/-- terminated non-empty lines followed by a blank line -/
theorem sep_lines : ∀ (ls : List Str), ls ≠ [] → (∀ l ∈ ls, l ≠ []) → (∀ l ∈ ls, '\n' ∉ l) → ∀ rest : Str,
    countSep (ls.flatMap (fun l => l ++ ['\n']) ++ '\n' :: rest) = 1 + countSep rest ∧
    splitSep (ls.flatMap (fun l => l ++ ['\n']) ++ '\n' :: rest) =
      some (ls.flatMap (fun l => l ++ ['\n']), rest) := by
  intro ls
  induction ls with
  | nil => intro h; exact absurd rfl h
  | cons l ls ih =>
    intro _ hne hnl rest
    have hl := hnl l (by simp)
    have e : (l :: ls).flatMap (fun l => l ++ ['\n']) ++ '\n' :: rest =
        l ++ ('\n' :: (ls.flatMap (fun l => l ++ ['\n']) ++ '\n' :: rest)) := by simp
    rw [e, countSep_line _ _ hl, splitSep_line _ _ hl]
    cases ls with
    | nil => simp [countSep, splitSep]
    | cons l' ls =>
      obtain ⟨h1, h2⟩ := ih (by simp) (fun x hx => hne x (by simp [hx])) (fun x hx => hnl x (by simp [hx])) rest
      obtain ⟨d, t, hd, hdn⟩ := exists_head_ne (hne l' (by simp)) (hnl l' (by simp))
      have e2 : (l' :: ls).flatMap (fun l => l ++ ['\n']) ++ '\n' :: rest =
          d :: (t ++ '\n' :: (ls.flatMap (fun l => l ++ ['\n']) ++ '\n' :: rest)) := by simp [hd]
      constructor
      · rw [e2, countSep_nl_ne hdn, ← e2, h1]
      · rw [e2, splitSep, if_neg (fun h' => hdn h'.2), ← e2, h2]
        simp

theorem b64Char_not_space : ∀ n, n < 64 → isPySpace (b64Char n) = false := by decide

theorem b64Encode_no_space (bs : Bytes) : ∀ c ∈ b64Encode bs, isPySpace c = false := by
  intro c hc
  rcases b64Encode_chars bs c hc with rfl | ⟨n, hn, rfl⟩
  · decide
  · exact b64Char_not_space n hn

theorem b64Encode_no_nl (bs : Bytes) : '\n' ∉ b64Encode bs := by
  intro h
  have := b64Encode_no_space bs _ h
  revert this; decide

theorem b64Encode_ne_nil {bs : Bytes} (h : bs ≠ []) : b64Encode bs ≠ [] := by
  intro e
  have := b64Encode_injective (a₁ := bs) (a₂ := []) (by rw [e]; rfl)
  exact h this

theorem decimal_no_nl (n : Nat) : '\n' ∉ decimal n := by
  intro h
  have := decimal_digits n _ h
  revert this; decide

theorem decDigit_not_space : ∀ n, n < 10 → isPySpace (decDigit n) = false := by decide

theorem nosp_no_nl {s : Str} (h : ∀ c ∈ s, isPySpace c = false) : '\n' ∉ s := by
  intro hm
  have := h _ hm
  revert this; decide

/-! ## Signature lines -/

theorem takeWhile_run {p : Char → Bool} (x : Str) (c : Char) (s : Str) (hx : ∀ d ∈ x, p d = true)
    (hc : p c = false) : (x ++ c :: s).takeWhile p = x ∧ (x ++ c :: s).dropWhile p = c :: s := by
  induction x with
  | nil => simp [hc]
  | cons a x ih =>
    obtain ⟨h1, h2⟩ := ih (fun d hd => hx d (by simp [hd]))
    have := hx a (by simp)
    simp [this, h1, h2]

theorem matchSigLine_line (s : NoteSig) (h : s.WF) (rest : Str) :
    matchSigLine (s.line ++ rest) = some (s.name, b64Encode (s.hint ++ s.sig), rest) := by
  have hb : ∀ c ∈ b64Encode (s.hint ++ s.sig), (!isPySpace c) = true := by
    intro c hc; simp [b64Encode_no_space _ c hc]
  have hn : ∀ c ∈ s.name, (!isPySpace c) = true := by intro c hc; simp [h.name_chars c hc]
  have e : s.line ++ rest = Char.ofNat 0x2014 :: ' ' ::
      (s.name ++ ' ' :: (b64Encode (s.hint ++ s.sig) ++ '\n' :: rest)) := by simp [NoteSig.line]
  obtain ⟨t1, d1⟩ := takeWhile_run (p := fun c => !isPySpace c) s.name ' '
    (b64Encode (s.hint ++ s.sig) ++ '\n' :: rest) hn (by decide)
  obtain ⟨t2, d2⟩ := takeWhile_run (p := fun c => !isPySpace c) (b64Encode (s.hint ++ s.sig)) '\n'
    rest hb (by decide)
  have hne : b64Encode (s.hint ++ s.sig) ≠ [] := by
    apply b64Encode_ne_nil
    intro e; exact h.sig_ne (List.append_eq_nil_iff.1 e).2
  rw [e, matchSigLine, if_pos ⟨by decide, rfl⟩]
  dsimp only
  rw [t1, d1]
  dsimp only
  rw [t2, d2]
  dsimp only
  rw [if_pos ⟨h.name_ne, rfl, hne, rfl⟩]

theorem line_ne_nil (s : NoteSig) : s.line ≠ [] := by simp [NoteSig.line]

theorem findSigLines_lines : ∀ (sigs : List NoteSig), (∀ s ∈ sigs, s.WF) → ∀ fuel, sigs.length ≤ fuel →
    findSigLines fuel (sigs.flatMap NoteSig.line) =
      sigs.map fun s => (s.name, b64Encode (s.hint ++ s.sig)) := by
  intro sigs
  induction sigs with
  | nil => intro _ fuel _; cases fuel <;> rfl
  | cons s sigs ih =>
    intro h fuel hf
    cases fuel with
    | zero => simp at hf
    | succ f =>
      have hm := matchSigLine_line s (h s (by simp)) (sigs.flatMap NoteSig.line)
      obtain ⟨c, t, hc⟩ := List.exists_cons_of_ne_nil (line_ne_nil s)
      rw [List.flatMap_cons]
      rw [hc, List.cons_append] at hm ⊢
      rw [findSigLines, hm]
      dsimp only
      rw [ih (fun x hx => h x (by simp [hx])) f (by simpa using hf)]
      rfl

theorem parseSignatures_lines : ∀ (sigs : List NoteSig), (∀ s ∈ sigs, s.WF) →
    parseSignatures (sigs.map fun s => (s.name, b64Encode (s.hint ++ s.sig))) =
      .ok (sigs.map fun s => ⟨s.name, s.hint, b64Encode s.sig⟩) := by
  intro sigs
  induction sigs with
  | nil => intro _; rfl
  | cons s sigs ih =>
    intro h
    have hs := h s (by simp)
    have hp : parseSignature (s.name, b64Encode (s.hint ++ s.sig)) = .ok ⟨s.name, s.hint, b64Encode s.sig⟩ := by
      have hl : 0 < s.sig.length := List.length_pos_iff.2 hs.sig_ne
      unfold parseSignature
      simp only [b64Decode_b64Encode]
      rw [if_neg (by rw [List.length_append, hs.hint_len]; omega)]
      rw [← hs.hint_len, List.take_left, List.drop_left]
    rw [List.map_cons, parseSignatures, hp]
    dsimp only
    rw [ih (fun x hx => h x (by simp [hx]))]
    rfl

theorem countSep_sigLines : ∀ (sigs : List NoteSig), (∀ s ∈ sigs, s.WF) →
    countSep (sigs.flatMap NoteSig.line) = 0 := by
  intro sigs
  induction sigs with
  | nil => intro _; rfl
  | cons s sigs ih =>
    intro h
    have hs := h s (by simp)
    have hline : (s :: sigs).flatMap NoteSig.line =
        (Char.ofNat 0x2014 :: ' ' :: (s.name ++ ' ' :: b64Encode (s.hint ++ s.sig))) ++
          ('\n' :: sigs.flatMap NoteSig.line) := by simp [NoteSig.line]
    rw [hline, countSep_line _ _ ?_]
    · have ih' := ih (fun x hx => h x (by simp [hx]))
      cases hsig : sigs.flatMap NoteSig.line with
      | nil => rfl
      | cons d t =>
        have hd : d ≠ '\n' := by
          cases sigs with
          | nil => simp at hsig
          | cons s' sigs =>
            rw [List.flatMap_cons, NoteSig.line, List.cons_append] at hsig
            rw [← (List.cons.inj hsig).1]
            decide
        rw [countSep_nl_ne hd, ← hsig, ih']
    · have h1 := nosp_no_nl hs.name_chars
      have h2 := b64Encode_no_nl (s.hint ++ s.sig)
      simp only [List.mem_cons, List.mem_append, not_or]
      exact ⟨by decide, by decide, h1, by decide, h2⟩

/-! ## Checkpoint body -/

theorem lines_ne (c : Checkpoint) (h : c.WF) : ∀ l ∈ c.lines, l ≠ [] := by
  intro l hl
  simp only [Checkpoint.lines, List.mem_cons] at hl
  rcases hl with rfl | rfl | rfl | hl
  · exact h.origin_ne
  · exact decimal_ne_nil _
  · exact b64Encode_ne_nil h.root_ne
  · exact h.extra_ne l hl

theorem lines_no_nl (c : Checkpoint) (h : c.WF) : ∀ l ∈ c.lines, '\n' ∉ l := by
  intro l hl
  simp only [Checkpoint.lines, List.mem_cons] at hl
  rcases hl with rfl | rfl | rfl | hl
  · exact h.origin_line
  · exact decimal_no_nl _
  · exact b64Encode_no_nl _
  · exact h.extra_line l hl

theorem flatMap_eq_intercalate : ∀ (ls : List Str), ls ≠ [] →
    ls.flatMap (fun l => l ++ ['\n']) = List.intercalate ['\n'] ls ++ ['\n'] := by
  intro ls
  induction ls with
  | nil => intro h; exact absurd rfl h
  | cons l ls ih =>
    intro _
    cases ls with
    | nil => simp [List.intercalate]
    | cons l' ls =>
      rw [List.flatMap_cons, ih (by simp)]
      simp [List.intercalate]

theorem getLast?_intercalate : ∀ (ls : List Str) (l : Str), ls.getLast? = some l → l ≠ [] →
    (List.intercalate ['\n'] ls).getLast? = l.getLast? := by
  intro ls
  induction ls with
  | nil => intro l h; simp at h
  | cons a ls ih =>
    intro l h hl
    cases ls with
    | nil =>
      have : a = l := by simpa using h
      subst this; simp [List.intercalate]
    | cons b ls =>
      have h' : (b :: ls).getLast? = some l := by simpa using h
      have e : List.intercalate ['\n'] (a :: b :: ls) = a ++ '\n' :: List.intercalate ['\n'] (b :: ls) := by
        simp [List.intercalate]
      have hi := ih l h' hl
      rw [e, List.getLast?_append, List.getLast?_cons, hi]
      obtain ⟨x, hx⟩ : ∃ x, l.getLast? = some x := by
        cases hq : l.getLast? with
        | none => rw [List.getLast?_eq_none_iff] at hq; exact absurd hq hl
        | some x => exact ⟨x, rfl⟩
      rw [hx]; rfl

theorem noteText_strip (c : Checkpoint) (h : c.WF) : splitLines (strip c.noteText) = c.lines := by
  have hne : c.lines ≠ [] := by simp [Checkpoint.lines]
  unfold Checkpoint.noteText
  rw [flatMap_eq_intercalate _ hne, strip_eq]
  · exact splitLines_intercalate _ hne (lines_no_nl c h)
  · obtain ⟨a, t, ha⟩ := List.exists_cons_of_ne_nil h.origin_ne
    simp [Checkpoint.lines, ha, List.intercalate]
  · intro ch hch
    obtain ⟨a, t, ha⟩ := List.exists_cons_of_ne_nil h.origin_ne
    have : (List.intercalate ['\n'] c.lines).head? = some a := by
      simp [Checkpoint.lines, ha, List.intercalate]
    rw [this] at hch
    exact h.origin_start ch (by rw [ha]; exact hch)
  · intro ch hch
    have hlast : ∃ l, c.lines.getLast? = some l ∧ l ≠ [] ∧ ∀ ch ∈ l.getLast?, isPySpace ch = false := by
      cases hx : c.extra.getLast? with
      | none =>
        rw [List.getLast?_eq_none_iff] at hx
        refine ⟨b64Encode c.root, by simp [Checkpoint.lines, hx], b64Encode_ne_nil h.root_ne, ?_⟩
        intro ch hch
        exact b64Encode_no_space _ _ (List.mem_of_getLast? hch)
      | some l =>
        refine ⟨l, ?_, h.extra_ne l (List.mem_of_getLast? hx), ?_⟩
        · simp only [Checkpoint.lines]
          rw [List.getLast?_cons, List.getLast?_cons, List.getLast?_cons, hx]; rfl
        · exact h.end_ok l (by rw [hx]; rfl)
    obtain ⟨l, h1, h2, h3⟩ := hlast
    rw [getLast?_intercalate _ l h1 h2] at hch
    exact h3 ch hch
  · intro ch hch
    have : ch = '\n' := by simpa using hch
    subst this; decide

/-! ## What parsing tells about the text -/

theorem splitSep_some : ∀ (t h d : Str), splitSep t = some (h, d) →
    t = h ++ '\n' :: d ∧ h.getLast? = some '\n' ∧ ¬ ['\n', '\n'] <:+: h := by
  intro t
  induction t with
  | nil => intro h d hs; simp [splitSep] at hs
  | cons c t ih =>
    intro h d hs
    cases t with
    | nil => simp [splitSep] at hs
    | cons e t =>
      rw [splitSep] at hs
      split at hs
      · rename_i hc
        obtain ⟨rfl, rfl⟩ := hc
        simp only [Option.some.injEq, Prod.mk.injEq] at hs
        obtain ⟨rfl, rfl⟩ := hs
        refine ⟨rfl, rfl, ?_⟩
        intro hi
        have := hi.length_le
        simp at this
      · rename_i hc
        rw [Option.map_eq_some_iff] at hs
        obtain ⟨⟨h', d'⟩, hs', heq⟩ := hs
        simp only [Prod.mk.injEq] at heq
        obtain ⟨rfl, rfl⟩ := heq
        obtain ⟨e1, e2, e3⟩ := ih h' d' hs'
        have hne : h' ≠ [] := by intro h0; rw [h0] at e2; simp at e2
        obtain ⟨x, xs, hx⟩ := List.exists_cons_of_ne_nil hne
        refine ⟨by rw [e1]; rfl, by rw [List.getLast?_cons, e2]; rfl, ?_⟩
        intro hi
        rcases List.infix_cons_iff.1 hi with hp | hi'
        · rw [hx] at hp
          obtain ⟨r, hr⟩ := hp
          simp only [List.cons_append, List.nil_append, List.cons.injEq] at hr
          rw [hx, List.cons_append] at e1
          exact hc ⟨hr.1.symm, by rw [(List.cons.inj e1).1]; exact hr.2.1.symm⟩
        · exact e3 hi'

theorem mem_takeWhile_imp' {α : Type} {p : α → Bool} {l : List α} {x : α} (h : x ∈ l.takeWhile p) :
    p x = true := by
  induction l with
  | nil => simp at h
  | cons a l ih =>
    rw [List.takeWhile_cons] at h
    split at h
    · rename_i ha
      rcases List.mem_cons.1 h with rfl | h
      · exact ha
      · exact ih h
    · simp at h

theorem matchSigLine_some {s name sig rest : Str} (h : matchSigLine s = some (name, sig, rest)) :
    s = (Char.ofNat 0x2014 :: ' ' :: (name ++ ' ' :: (sig ++ ['\n']))) ++ rest ∧ name ≠ [] ∧ sig ≠ [] ∧
      (∀ c ∈ name, isPySpace c = false) ∧ (∀ c ∈ sig, isPySpace c = false) := by
  unfold matchSigLine at h
  split at h
  · rename_i d sp r
    split at h
    · rename_i hds
      obtain ⟨hd, rfl⟩ := hds
      dsimp only at h
      split at h
      · rename_i sp' r' hr'
        split at h
        · rename_i nl r'' hr''
          split at h
          · rename_i hc
            obtain ⟨hn, rfl, hsg, rfl⟩ := hc
            simp only [Option.some.injEq, Prod.mk.injEq] at h
            obtain ⟨rfl, rfl, rfl⟩ := h
            have e1 := List.takeWhile_append_dropWhile (p := fun c => !isPySpace c) (l := r)
            have e2 := List.takeWhile_append_dropWhile (p := fun c => !isPySpace c) (l := r')
            rw [hr'] at e1
            rw [hr''] at e2
            have hd' : d = Char.ofNat 0x2014 := by rw [← hd, Char.ofNat_toNat]
            have m1 : ∀ c ∈ r.takeWhile (fun c => !isPySpace c), isPySpace c = false := by
              intro c hc
              have := mem_takeWhile_imp' hc
              simpa using this
            have m2 : ∀ c ∈ r'.takeWhile (fun c => !isPySpace c), isPySpace c = false := by
              intro c hc
              have := mem_takeWhile_imp' hc
              simpa using this
            refine ⟨?_, hn, hsg, m1, m2⟩
            generalize List.takeWhile (fun c => !isPySpace c) r = n at *
            generalize List.takeWhile (fun c => !isPySpace c) r' = sg at *
            rw [hd', ← e1, ← e2]
            simp
          · simp at h
        · simp at h
      · simp at h
    · simp at h
  · simp at h

theorem mem_findSigLines : ∀ (fuel : Nat) (s name sig : Str), (name, sig) ∈ findSigLines fuel s →
    (Char.ofNat 0x2014 :: ' ' :: (name ++ ' ' :: (sig ++ ['\n']))) <:+: s ∧ name ≠ [] ∧ sig ≠ [] ∧
      (∀ c ∈ name, isPySpace c = false) ∧ (∀ c ∈ sig, isPySpace c = false) := by
  intro fuel
  induction fuel with
  | zero => intro s name sig h; simp [findSigLines] at h
  | succ f ih =>
    intro s name sig h
    cases s with
    | nil => simp [findSigLines] at h
    | cons c s =>
      rw [findSigLines] at h
      split at h
      · rename_i n sg rest hm
        obtain ⟨e, h1, h2, h3, h4⟩ := matchSigLine_some hm
        rcases List.mem_cons.1 h with heq | hin
        · obtain ⟨rfl, rfl⟩ := Prod.mk.inj heq
          refine ⟨?_, h1, h2, h3, h4⟩
          rw [e]
          exact ⟨[], rest, by simp⟩
        · obtain ⟨hi, h⟩ := ih rest name sig hin
          refine ⟨?_, h⟩
          rw [e]
          exact hi.trans (List.suffix_append _ _).isInfix
      · obtain ⟨hi, h⟩ := ih s name sig h
        exact ⟨hi.trans (List.suffix_cons c s).isInfix, h⟩

theorem parseSignatures_mem : ∀ (ms : List (Str × Str)) (ss : List RekorSignature),
    parseSignatures ms = .ok ss → ∀ s ∈ ss, ∃ m ∈ ms, ∃ bs, b64Decode m.2 = .ok bs ∧ 5 ≤ bs.length ∧
      s = ⟨m.1, bs.take 4, b64Encode (bs.drop 4)⟩ := by
  intro ms
  induction ms with
  | nil => intro ss h s hs; simp [parseSignatures] at h; subst h; simp at hs
  | cons m ms ih =>
    intro ss h s hs
    rw [parseSignatures] at h
    cases hp : parseSignature m with
    | error e => rw [hp] at h; simp at h
    | ok s0 =>
      rw [hp] at h
      dsimp only at h
      cases hps : parseSignatures ms with
      | error e => rw [hps] at h; simp at h
      | ok ss0 =>
        rw [hps] at h
        have := Except.ok.inj h
        subst this
        rcases List.mem_cons.1 hs with rfl | hs
        · unfold parseSignature at hp
          cases hb : b64Decode m.2 with
          | error e => rw [hb] at hp; simp at hp
          | ok bs =>
            rw [hb] at hp
            dsimp only at hp
            split at hp
            · simp at hp
            · rename_i hl
              exact ⟨m, by simp, bs, hb, by omega, (Except.ok.inj hp).symm⟩
        · obtain ⟨m', hm', r⟩ := ih ss0 hps s hs
          exact ⟨m', by simp [hm'], r⟩

theorem verifySigs_ok (c : Crypto) (kr : Keyring) (id note : Bytes) : ∀ (ss : List RekorSignature),
    verifySigs c kr id note ss = .ok () →
      ∃ s ∈ ss, s.sigHash = id.take 4 ∧ ∃ sig, b64Decode s.signature = .ok sig ∧ kr.verify c id sig note = .ok () := by
  intro ss
  induction ss with
  | nil => intro h; simp [verifySigs] at h
  | cons s ss ih =>
    intro h
    rw [verifySigs] at h
    split at h
    · rename_i hh
      cases hb : b64Decode s.signature with
      | error e => rw [hb] at h; simp at h
      | ok sig =>
        rw [hb] at h
        dsimp only at h
        cases hv : kr.verify c id sig note with
        | ok u => exact ⟨s, by simp, hh, sig, hb, by cases u; exact hv⟩
        | error e => rw [hv] at h; dsimp only at h; split at h <;> simp at h
    · obtain ⟨s', hs', r⟩ := ih h
      exact ⟨s', by simp [hs'], r⟩

theorem signedNote_ok {text : Str} {n : SignedNote} (h : SignedNote.fromText text = .ok n) :
    ∃ data, text = n.note ++ '\n' :: data ∧ n.note.getLast? = some '\n' ∧ ¬ ['\n', '\n'] <:+: n.note ∧
      data.getLast? = some '\n' ∧ parseSignatures (findSigLines data.length data) = .ok n.signatures := by
  unfold SignedNote.fromText at h
  split at h
  · simp at h
  · split at h
    · simp at h
    · rename_i header data hs
      split at h
      · simp at h
      · split at h
        · simp at h
        · rename_i hl
          cases hp : parseSignatures (findSigLines data.length data) with
          | error e => rw [hp] at h; simp at h
          | ok sigs =>
            rw [hp] at h
            have := Except.ok.inj h
            subst this
            obtain ⟨e1, e2, e3⟩ := splitSep_some _ _ _ hs
            exact ⟨data, e1, e2, e3, by simpa using hl, hp⟩

theorem logCheckpoint_ok {pyInt : Str → Option Int} {text : Str} {ck : LogCheckpoint}
    (h : LogCheckpoint.fromText pyInt text = .ok ck) :
    ∃ size root bs, splitLines (strip text) = ck.origin :: size :: root :: ck.otherContent ∧
      pyInt size = some ck.logSize ∧ b64Decode root = .ok bs ∧ ck.logHash = hexEncode bs ∧ ck.origin ≠ [] := by
  unfold LogCheckpoint.fromText at h
  split at h
  · rename_i origin size root other hl
    split at h
    · simp at h
    · rename_i ho
      split at h
      · simp at h
      · rename_i n hn
        split at h
        · rename_i bs hb
          have := Except.ok.inj h
          subst this
          refine ⟨size, root, bs, hl, hn, hb, rfl, ?_⟩
          intro e; apply ho; dsimp only at e; rw [e]; rfl
        · simp at h
        · simp at h
  · simp at h

end Sigstore.Checkpoint
