import Verif.Lemmas.ArgvLevel

/-!
# Lemmas about the options and positional arguments of one parser
-/

namespace Sigstore.Args

open Sigstore.Cli Sigstore.Spec

/-- what is known about the words of one parser, by the positional arguments it takes and how far it is with them -/
def Result (negative : Str → Bool) (v : Vocabulary) : Positional → Phase → List Str → Split → Prop
  | .command, _, ws, s => ∃ w₁, ws = w₁ ++ s.args ∧ OptionWords negative v w₁ s.occs
  | .none, _, ws, s => OptionWords negative v ws s.occs ∧ s.args = []
  | _, .fresh, ws, s => CommandWords negative v ws s.occs s.args
  | _, .taking, ws, s => ∃ ps rest, ws = ps ++ rest ∧ (∀ p ∈ ps, v.Plain negative p) ∧
      ((OptionWords negative v rest s.occs ∧ s.args = ps) ∨
        ∃ qs, rest = "--".toList :: qs ∧ s.occs = [] ∧ s.args = ps ++ qs)
  | _, .done, ws, s => OptionWords negative v ws s.occs ∧ s.args = []

theorem commandWords_of_options {negative : Str → Bool} {v : Vocabulary} {ws : List Str} {os : List Occ}
    (h : OptionWords negative v ws os) : CommandWords negative v ws os [] := by
  have := CommandWords.plain (ps := []) h (fun _ h => nomatch h) .nil
  simpa using this

/-- options before what is known -/
theorem Result.options {negative : Str → Bool} {v : Vocabulary} {kind : Positional} {ph : Phase} {w₁ ws : List Str}
    {os : List Occ} {s : Split} (h₁ : OptionWords negative v w₁ os) (h : Result negative v kind ph.stop ws s) :
    Result negative v kind ph (w₁ ++ ws) (s.add os false) := by
  have two : kind = .one ∨ kind = .many → Result negative v kind ph (w₁ ++ ws) (s.add os false) := by
    intro hk
    have h : Result negative v .many ph.stop ws s := by rcases hk with rfl | rfl <;> cases ph <;> exact h
    have : Result negative v .many ph (w₁ ++ ws) (s.add os false) := by
      cases ph with
      | fresh => exact commandWords_append h₁ h
      | taking => exact ⟨[], _, rfl, (fun _ h => nomatch h), .inl ⟨optionWords_append h₁ h.1, h.2⟩⟩
      | done => exact ⟨optionWords_append h₁ h.1, h.2⟩
    rcases hk with rfl | rfl <;> cases ph <;> exact this
  cases kind with
  | none => exact ⟨optionWords_append h₁ h.1, h.2⟩
  | command =>
    obtain ⟨w₂, rfl, h⟩ := h
    exact ⟨w₁ ++ w₂, (List.append_assoc _ _ _).symm, optionWords_append h₁ h⟩
  | one => exact two (.inl rfl)
  | many => exact two (.inr rfl)

theorem consume_after_many {opts : List Opt} : ∀ (ws : List Str) (ph : Phase), ph ≠ .done →
    consume opts .many ph (afterDashes ws) = ⟨[], ws, false⟩
  | [], ph, _ => by rw [afterDashes, consume]
  | w :: ws, ph, h => by
    rw [afterDashes, consume.eq_def]
    cases ph with
    | done => exact absurd rfl h
    | fresh =>
      dsimp only
      rw [consume_after_many ws .taking (by decide)]
      rfl
    | taking =>
      dsimp only
      rw [consume_after_many ws .taking (by decide)]
      rfl

theorem consume_after_one {opts : List Opt} : ∀ (ws : List Str),
    (consume opts .one .taking (afterDashes ws)).extras = false → ws = []
  | [], _ => rfl
  | w :: ws, h => by
    rw [afterDashes, consume.eq_def] at h
    cases h

section
variable {negative : Str → Bool} {opts : List Opt} {v : Vocabulary} (hs : Speaks opts v)
include hs

/-- what a parser accepts is written as specified -/
theorem consume_sound (kind : Positional) : ∀ (k : Nat) (ws : List Str) (ms : List (Str × Mark)), ws.length ≤ k →
    marks negative opts ws = .ok ms → ∀ ph, (consume opts kind ph ms).extras = false →
    (∀ occ ∈ (consume opts kind ph ms).occs, Fits v occ) → Result negative v kind ph ws (consume opts kind ph ms) := by
  intro k
  induction k with
  | zero =>
    intro ws ms hk hm ph _ _
    obtain rfl := List.eq_nil_of_length_eq_zero (Nat.le_zero.1 hk)
    rw [marks] at hm
    obtain rfl := Except.ok.inj hm
    rw [consume]
    cases kind <;> cases ph <;>
      first
        | exact ⟨.nil, rfl⟩
        | exact ⟨[], rfl, .nil⟩
        | exact commandWords_of_options .nil
        | exact ⟨[], [], rfl, (fun _ h => nomatch h), .inl ⟨.nil, rfl⟩⟩
  | succ k ih =>
    intro ws ms hk hm ph hx hf
    match ws, hk, hm with
    | [], _, hm =>
      rw [marks] at hm
      obtain rfl := Except.ok.inj hm
      rw [consume]
      cases kind <;> cases ph <;>
        first
          | exact ⟨.nil, rfl⟩
          | exact ⟨[], rfl, .nil⟩
          | exact commandWords_of_options .nil
          | exact ⟨[], [], rfl, (fun _ h => nomatch h), .inl ⟨.nil, rfl⟩⟩
    | w :: ws, hk, hm =>
      have hk' : ws.length ≤ k := Nat.le_of_succ_le_succ hk
      rcases marks_cons_ok hm with ⟨rfl, rfl⟩ | ⟨hw, m, ms', hp, hm', rfl⟩
      · -- `--`
        rw [consume.eq_def] at hx hf ⊢
        cases kind with
        | none => cases hx
        | command => exact ⟨[], by dsimp only; rw [afterDashes_fst]; rfl, .nil⟩
        | many =>
          cases ph with
          | fresh =>
            dsimp only at hx hf ⊢
            split at hx
            · cases hx
            · rename_i hne
              rw [if_neg hne, consume_after_many ws .fresh (by decide)]
              have : ws ≠ [] := by
                rintro rfl
                exact hne rfl
              have := CommandWords.dashes (negative := negative) (v := v) (ps := []) (qs := ws) .nil (fun _ h => nomatch h) this
              exact this
          | taking =>
            dsimp only at hx hf ⊢
            rw [consume_after_many ws .taking (by decide)]
            exact ⟨[], _, rfl, (fun _ h => nomatch h), .inr ⟨ws, rfl, rfl, rfl⟩⟩
          | done => cases hx
        | one =>
          cases ph with
          | fresh =>
            dsimp only at hx hf ⊢
            split at hx
            · cases hx
            · rename_i hne
              rw [if_neg hne]
              match ws, hne, hx with
              | [], hne, _ => exact absurd rfl hne
              | a :: t, hne, hx =>
                have e : consume opts .one .fresh (afterDashes (a :: t)) =
                    (consume opts .one .taking (afterDashes t)).addArg a := by
                  rw [afterDashes, consume.eq_def]
                rw [e] at hx ⊢
                obtain rfl := consume_after_one t hx
                have := CommandWords.dashes (negative := negative) (v := v) (ps := []) (qs := [a]) .nil (fun _ h => nomatch h)
                  (by simp)
                exact this
          | taking =>
            dsimp only at hx hf ⊢
            obtain rfl := consume_after_one ws hx
            exact ⟨[], _, rfl, (fun _ h => nomatch h), .inr ⟨[], rfl, rfl, rfl⟩⟩
          | done => cases hx
      · have hc := parse_cases (negative := negative) hs hw
        rw [hp] at hc
        cases m with
        | dashes => exact hc.elim
        | option known n e =>
          cases known with
          | none =>
            rw [consume.eq_def] at hx
            cases hx
          | some o =>
            obtain ⟨w₁, rest, occs, ms'', h1, h2, h3, h4, h5⟩ := consume_option hs hw hp hm' hx hf
            rw [h5] at hx hf ⊢
            rw [h1]
            refine Result.options h3 (ih rest ms'' (Nat.le_trans h2 hk') h4 _ ?_ ?_)
            · unfold Split.add at hx
              simpa using hx
            · intro occ ho
              refine hf occ ?_
              unfold Split.add
              exact List.mem_append_right _ ho
        | arg =>
          have hc : v.Plain negative w := hc
          rw [consume.eq_def] at hx hf ⊢
          cases kind with
          | none => cases hx
          | command => exact ⟨[], by dsimp only; rw [marks_fst hm']; rfl, .nil⟩
          | many =>
            cases ph with
            | done => cases hx
            | fresh =>
              dsimp only at hx hf ⊢
              obtain ⟨ps, rest, rfl, hps, h⟩ := ih ws ms' hk' hm' .taking hx hf
              have hps' : ∀ p ∈ w :: ps, v.Plain negative p := List.forall_mem_cons.2 ⟨hc, hps⟩
              rcases h with ⟨h, ha⟩ | ⟨qs, rfl, ho, ha⟩
              · have := CommandWords.plain (w₁ := []) .nil hps' h
                unfold Split.addArg
                change CommandWords negative v _ (consume opts .many .taking ms').occs (w :: (consume opts .many .taking ms').args)
                rw [ha]
                exact this
              · have := CommandWords.dashes (w₁ := []) (qs := qs) .nil hps' (by simp)
                unfold Split.addArg
                change CommandWords negative v _ (consume opts .many .taking ms').occs (w :: (consume opts .many .taking ms').args)
                rw [ho, ha]
                exact this
            | taking =>
              dsimp only at hx hf ⊢
              obtain ⟨ps, rest, rfl, hps, h⟩ := ih ws ms' hk' hm' .taking hx hf
              have hps' : ∀ p ∈ w :: ps, v.Plain negative p := List.forall_mem_cons.2 ⟨hc, hps⟩
              refine ⟨w :: ps, rest, rfl, hps', ?_⟩
              rcases h with ⟨h, ha⟩ | ⟨qs, rfl, ho, ha⟩
              · exact .inl ⟨h, congrArg (w :: ·) ha⟩
              · exact .inr ⟨qs, rfl, ho, congrArg (w :: ·) ha⟩
          | one =>
            cases ph with
            | done => cases hx
            | taking => cases hx
            | fresh =>
              dsimp only at hx hf ⊢
              obtain ⟨ps, rest, rfl, hps, h⟩ := ih ws ms' hk' hm' .taking hx hf
              have hps' : ∀ p ∈ w :: ps, v.Plain negative p := List.forall_mem_cons.2 ⟨hc, hps⟩
              rcases h with ⟨h, ha⟩ | ⟨qs, rfl, ho, ha⟩
              · have := CommandWords.plain (w₁ := []) .nil hps' h
                unfold Split.addArg
                change CommandWords negative v _ (consume opts .one .taking ms').occs (w :: (consume opts .one .taking ms').args)
                rw [ha]
                exact this
              · have := CommandWords.dashes (w₁ := []) (qs := qs) .nil hps' (by simp)
                unfold Split.addArg
                change CommandWords negative v _ (consume opts .one .taking ms').occs (w :: (consume opts .one .taking ms').args)
                rw [ho, ha]
                exact this

/-! ## Completeness -/

/-- positional arguments are taken as they are -/
theorem consume_plain : ∀ (ps : List Str), (∀ p ∈ ps, v.Plain negative p) → ∀ (rest : List Str) (ms : List (Str × Mark)),
    marks negative opts rest = .ok ms → ∃ ms₁, marks negative opts (ps ++ rest) = .ok ms₁ ∧
      (∀ p t, ps = p :: t → consume opts .many .fresh ms₁ = ⟨(consume opts .many .taking ms).occs,
        ps ++ (consume opts .many .taking ms).args, (consume opts .many .taking ms).extras⟩) ∧
      consume opts .many .taking ms₁ = ⟨(consume opts .many .taking ms).occs,
        ps ++ (consume opts .many .taking ms).args, (consume opts .many .taking ms).extras⟩ ∧
      (∀ p, ps = [p] → consume opts .one .fresh ms₁ = (consume opts .one .taking ms).addArg p)
  | [], _, rest, ms, hm => ⟨ms, hm, (fun _ _ h => nomatch h), rfl, (fun _ h => nomatch h)⟩
  | p :: ps, hps, rest, ms, hm => by
    obtain ⟨ms₁, h1, _, h3, _⟩ := consume_plain ps (fun q hq => hps q (List.mem_cons_of_mem _ hq)) rest ms hm
    have hp := hps p List.mem_cons_self
    have e1 : consume opts .many .fresh ((p, .arg) :: ms₁) = (consume opts .many .taking ms₁).addArg p := by
      rw [consume.eq_def]
    have e2 : consume opts .many .taking ((p, .arg) :: ms₁) = (consume opts .many .taking ms₁).addArg p := by
      rw [consume.eq_def]
    refine ⟨(p, .arg) :: ms₁, marks_cons hp.1 (parse_plain hs hp) h1, ?_, ?_, ?_⟩
    · intro _ _ _
      rw [e1, h3]
      rfl
    · rw [e2, h3]
      rfl
    · intro q hq
      obtain ⟨rfl, rfl⟩ := List.cons.inj hq
      rw [List.nil_append, hm] at h1
      obtain rfl := Except.ok.inj h1
      rw [consume.eq_def]

/-- what is written as specified is accepted by the parser of a command -/
theorem split_complete (kind : Positional) {ws : List Str} {occs : List Occ} {ps : List Str}
    (h : CommandWords negative v ws occs ps)
    (ha : match kind with
      | .none => ps = []
      | .one => ∃ p, ps = [p]
      | .many => ps ≠ []
      | .command => False) : splitWords negative opts kind ws = .ok ⟨occs, ps, false⟩ := by
  cases h with
  | @plain w₁ w₂ ps o₁ o₂ h1 hp h2 =>
    obtain ⟨ms₂, m2, c2⟩ := consume_optionWords (kind := kind) hs h2 (rest := []) (ms := []) rfl
    rw [List.append_nil] at m2
    obtain ⟨msp, mp, cp, _, co⟩ := consume_plain hs ps hp w₂ ms₂ m2
    obtain ⟨ms₁, m1, c1⟩ := consume_optionWords (kind := kind) hs h1 mp
    unfold splitWords
    rw [m1]
    dsimp only
    rw [c1 .fresh]
    have e : (if w₁ = [] then Phase.fresh else Phase.fresh.stop) = .fresh := by split <;> rfl
    rw [e]
    cases kind with
    | command => exact ha.elim
    | none =>
      obtain rfl : ps = [] := ha
      rw [List.nil_append, m2] at mp
      obtain rfl := Except.ok.inj mp
      rw [c2 .fresh]
      rw [consume]
      unfold Split.add
      simp
    | many =>
      obtain ⟨p, t, rfl⟩ := List.exists_cons_of_ne_nil ha
      rw [cp p t rfl, c2 .taking]
      rw [consume]
      unfold Split.add
      simp
    | one =>
      obtain ⟨p, rfl⟩ := ha
      rw [co p rfl, c2 .taking]
      rw [consume]
      unfold Split.add Split.addArg
      simp
  | @dashes w₁ ps qs o₁ h1 hp hne =>
    have m2 : marks negative opts ("--".toList :: qs) = .ok (("--".toList, .dashes) :: afterDashes qs) := by
      rw [marks, if_pos (by rfl)]
    obtain ⟨msp, mp, cp, _, co⟩ := consume_plain hs ps hp _ _ m2
    obtain ⟨ms₁, m1, c1⟩ := consume_optionWords (kind := kind) hs h1 mp
    unfold splitWords
    rw [m1]
    dsimp only
    rw [c1 .fresh]
    have e : (if w₁ = [] then Phase.fresh else Phase.fresh.stop) = .fresh := by split <;> rfl
    rw [e]
    cases kind with
    | command => exact ha.elim
    | none => exact absurd ha hne
    | many =>
      match ps, mp, cp with
      | [], mp, _ =>
        rw [List.nil_append, m2] at mp
        obtain rfl := Except.ok.inj mp
        rw [consume.eq_def]
        dsimp only
        rw [if_neg (by
          cases qs with
          | nil => exact absurd rfl hne
          | cons q t => intro h; cases h), consume_after_many qs .fresh (by decide)]
        unfold Split.add
        simp
      | p :: t, mp, cp =>
        have e2 : consume opts .many .taking (("--".toList, .dashes) :: afterDashes qs) = ⟨[], qs, false⟩ := by
          rw [consume.eq_def]
          dsimp only
          exact consume_after_many qs .taking (by decide)
        rw [cp p t rfl, e2]
        unfold Split.add
        simp
    | one =>
      obtain ⟨r, hr⟩ := ha
      match ps, mp, co, hr with
      | [], mp, _, hr =>
        rw [List.nil_append] at hr
        subst hr
        rw [List.nil_append, m2] at mp
        obtain rfl := Except.ok.inj mp
        rw [consume.eq_def]
        dsimp only
        rw [if_neg (by intro h; cases h)]
        have e2 : consume opts .one .fresh (afterDashes [r]) = ⟨[], [r], false⟩ := by
          rw [afterDashes, consume.eq_def]
          dsimp only
          rw [afterDashes, consume]
          rfl
        rw [e2]
        unfold Split.add
        simp
      | p :: t, mp, co, hr =>
        obtain ⟨rfl, h⟩ := List.cons.inj hr
        obtain ⟨rfl, rfl⟩ := List.append_eq_nil_iff.1 h
        have e2 : consume opts .one .taking (("--".toList, .dashes) :: afterDashes []) = ⟨[], [], false⟩ := by
          rw [consume.eq_def]
          dsimp only
          rw [afterDashes, consume]
        rw [co p rfl, e2]
        unfold Split.add Split.addArg
        simp

/-- before a command -/
theorem split_command {w₁ : List Str} {occs : List Occ} (h : OptionWords negative v w₁ occs) {name : Str} {rest : List Str}
    (hn : v.Plain negative name) (hc : v.Clear rest) :
    splitWords negative opts .command (w₁ ++ name :: rest) = .ok ⟨occs, name :: rest, false⟩ := by
  obtain ⟨ms, hm⟩ := (marks_clear (negative := negative) hs rest).2 hc
  obtain ⟨ms₁, m1, c1⟩ := consume_optionWords (kind := .command) hs h (marks_cons hn.1 (parse_plain hs hn) hm)
  unfold splitWords
  rw [m1]
  dsimp only
  rw [c1 .fresh, consume.eq_def]
  dsimp only
  rw [marks_fst hm]
  unfold Split.add
  simp

end

end Sigstore.Args
