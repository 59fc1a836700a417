import Verif.Lemmas.Argv

/-!
# Lemmas about the words of one parser
-/

namespace Sigstore.Args

open Sigstore.Cli Sigstore.Spec

/-- an option with a value exactly if it takes one -/
def Fits (v : Vocabulary) (o : Occ) : Prop :=
  (o.name ∈ v.values.map String.toList ∧ ∃ x, o.value = some x) ∨ (o.name ∈ v.flags.map String.toList ∧ o.value = none)

theorem optionWords_append {negative : Str → Bool} {v : Vocabulary} {w₁ w₂ : List Str} {o₁ o₂ : List Occ}
    (h₁ : OptionWords negative v w₁ o₁) (h₂ : OptionWords negative v w₂ o₂) :
    OptionWords negative v (w₁ ++ w₂) (o₁ ++ o₂) := by
  induction h₁ with
  | nil => exact h₂
  | flag hn hf _ ih => exact .flag hn hf ih
  | value hn hf hp _ ih => exact .value hn hf hp ih
  | joined hn hf _ ih => exact .joined hn hf ih
  | verbose _ ih =>
    rw [List.cons_append, List.append_assoc]
    exact .verbose ih

theorem commandWords_append {negative : Str → Bool} {v : Vocabulary} {w₁ w₂ ps : List Str} {o₁ o₂ : List Occ}
    (h₁ : OptionWords negative v w₁ o₁) (h₂ : CommandWords negative v w₂ o₂ ps) :
    CommandWords negative v (w₁ ++ w₂) (o₁ ++ o₂) ps := by
  cases h₂ with
  | plain ha hp hb =>
    rw [← List.append_assoc w₁, ← List.append_assoc o₁]
    exact .plain (optionWords_append h₁ ha) hp hb
  | dashes ha hp hne =>
    rw [← List.append_assoc]
    exact .dashes (optionWords_append h₁ ha) hp hne

/-! ## Marks -/

theorem afterDashes_fst : ∀ ws, (afterDashes ws).map Prod.fst = ws
  | [] => rfl
  | w :: ws => by rw [afterDashes, List.map_cons, afterDashes_fst ws]

theorem marks_fst {negative : Str → Bool} {opts : List Opt} : ∀ {ws : List Str} {ms : List (Str × Mark)},
    marks negative opts ws = .ok ms → ms.map Prod.fst = ws
  | [], ms, h => by
    rw [marks] at h
    obtain rfl := Except.ok.inj h
    rfl
  | w :: ws, ms, h => by
    rw [marks] at h
    split at h
    · obtain rfl := Except.ok.inj h
      rw [List.map_cons, afterDashes_fst]
    · split at h
      · cases h
      · split at h
        · cases h
        · rename_i m _ ms' h'
          obtain rfl := Except.ok.inj h
          rw [List.map_cons, marks_fst h']

section
variable {negative : Str → Bool} {opts : List Opt} {v : Vocabulary} (hs : Speaks opts v)
include hs

/-- marking fails exactly if a word is ambiguous -/
theorem marks_clear : ∀ ws : List Str, (∃ ms, marks negative opts ws = .ok ms) ↔ v.Clear ws
  | [] => by
    refine iff_of_true ⟨_, rfl⟩ ?_
    intro w hw
    cases hw
  | w :: ws => by
    rw [marks]
    by_cases hd : w = dashDash
    · rw [if_pos hd]
      refine iff_of_true ⟨_, rfl⟩ ?_
      intro x hx
      unfold beforeDashes at hx
      rw [List.takeWhile_cons_of_neg (by rw [hd]; decide)] at hx
      cases hx
    · rw [if_neg hd]
      have ih := marks_clear ws
      have hc : v.Clear (w :: ws) ↔ ¬ v.Ambiguous w ∧ v.Clear ws := by
        unfold Vocabulary.Clear beforeDashes
        rw [List.takeWhile_cons_of_pos (by simpa [dashDash] using hd), List.forall_mem_cons]
      have hp := parse_cases (negative := negative) hs (w := w) hd
      rw [hc]
      cases h : parseOptional negative opts w with
      | error e =>
        rw [h] at hp
        refine iff_of_false ?_ (fun h' => h'.1 hp.2)
        rintro ⟨_, h'⟩
        cases h'
      | ok m =>
        have hamb : ¬ v.Ambiguous w := by
          intro ha
          rw [parse_ambiguous hs ha] at h
          cases h
        rw [and_iff_right hamb, ← ih]
        dsimp only
        cases marks negative opts ws with
        | error e => simp
        | ok ms => simp

omit hs in
/-- marking a word -/
theorem marks_cons {w : Str} {ws : List Str} {m : Mark} {ms : List (Str × Mark)} (hw : w ≠ "--".toList)
    (hm : parseOptional negative opts w = .ok m) (h : marks negative opts ws = .ok ms) :
    marks negative opts (w :: ws) = .ok ((w, m) :: ms) := by
  rw [marks, if_neg (by exact hw), hm]
  dsimp only
  rw [h]

omit hs in
/-- the marks of a sequence of words -/
theorem marks_cons_ok {w : Str} {ws : List Str} {ms : List (Str × Mark)} (h : marks negative opts (w :: ws) = .ok ms) :
    (w = "--".toList ∧ ms = (w, .dashes) :: afterDashes ws) ∨
    (w ≠ "--".toList ∧ ∃ m ms', parseOptional negative opts w = .ok m ∧ marks negative opts ws = .ok ms' ∧
      ms = (w, m) :: ms') := by
  rw [marks] at h
  split at h
  · rename_i hd
    exact .inl ⟨hd, (Except.ok.inj h).symm⟩
  · rename_i hd
    split at h
    · cases h
    · rename_i m hm
      split at h
      · cases h
      · rename_i ms' h'
        exact .inr ⟨hd, m, ms', hm, h', (Except.ok.inj h).symm⟩

/-! ## Options -/

omit hs in
theorem cluster_store {occs : List Occ} {o : Opt} {name text : Str} {sep : Bool} (ho : o.action = .store) :
    cluster opts occs o name sep text = .closed (occs ++ [⟨name, some text⟩]) false := by
  cases text with
  | nil => rw [cluster, if_pos ho]
  | cons c cs => rw [cluster.eq_def]; dsimp only; rw [if_pos ho]

/-- an option in a name is a value or not -/
theorem fits_value {n : Str} {o : Opt} (hf : findOpt opts n = some o) {x : Str} (h : Fits v ⟨n, some x⟩) :
    o.action = .store := by
  rcases h with ⟨h, _⟩ | ⟨_, h⟩
  · obtain ⟨o', h1, h2⟩ := hs.values n h
    rw [hf] at h1
    obtain rfl := Option.some.inj h1
    exact h2
  · cases h

/-- options with one dash that take no value -/
theorem cluster_flags : ∀ (text : Str) (occs : List Occ) (o : Opt) (c : Char) (sep : Bool), c ≠ '-' →
    findOpt opts ['-', c] = some o →
    (∃ occs' x, cluster opts occs o ['-', c] sep text = .closed occs' x ∧ (x = false → ∃ bad ∈ occs', ¬ Fits v bad)) ∨
    (∃ occs' o' n', cluster opts occs o ['-', c] sep text = .opened occs' o' n' ∧ o'.action ≠ .store ∧ sep = false ∧
      occs' ++ [⟨n', none⟩] = occs ++ ⟨['-', c], none⟩ :: text.map fun d => ⟨['-', d], none⟩)
  | [], occs, o, c, sep, hc, hf => by
    have ho := hs.short c o hf
    left
    refine ⟨_, _, by rw [cluster, if_neg ho], fun _ => ⟨_, List.mem_cons_self, fun h => ho (fits_value hs hf h)⟩⟩
  | d :: ds, occs, o, c, sep, hc, hf => by
    have ho := hs.short c o hf
    have hsn : shortName ['-', c] ≠ false := by
      unfold shortName
      simpa using hc
    by_cases hsep : (sep || decide (d = '-')) = true
    · left
      refine ⟨_, _, by rw [cluster.eq_def]; dsimp only; rw [if_neg ho, if_neg hsn, if_pos hsep],
        fun _ => ⟨_, List.mem_cons_self, fun h => ho (fits_value hs hf h)⟩⟩
    · have hsep' : sep = false ∧ d ≠ '-' := by simpa using hsep
      cases hd : findOpt opts ['-', d] with
      | none =>
        left
        refine ⟨_, true, by rw [cluster.eq_def]; dsimp only; rw [if_neg ho, if_neg hsn, if_neg hsep, hd], fun h => nomatch h⟩
      | some o' =>
        match ds with
        | [] =>
          right
          refine ⟨_, o', _, by rw [cluster.eq_def]; dsimp only; rw [if_neg ho, if_neg hsn, if_neg hsep, hd],
            hs.short d o' hd, hsep'.1, ?_⟩
          rw [List.append_assoc]
          rfl
        | e :: es =>
          by_cases he : e = '='
          · subst he
            rcases cluster_flags es (occs ++ [⟨['-', c], none⟩]) o' d true hsep'.2 hd with
              ⟨occs', x, h1, h2⟩ | ⟨_, _, _, _, _, h, _⟩
            · left
              refine ⟨occs', x, ?_, h2⟩
              rw [cluster.eq_def]; dsimp only; rw [if_neg ho, if_neg hsn, if_neg hsep, hd]
              exact h1
            · cases h
          · have e1 : cluster opts occs o ['-', c] sep (d :: e :: es) =
                cluster opts (occs ++ [⟨['-', c], none⟩]) o' ['-', d] false (e :: es) := by
              rw [cluster.eq_def]; dsimp only; rw [if_neg ho, if_neg hsn, if_neg hsep, hd]
              dsimp only
              split
              · rename_i h; cases h
              · rename_i h; exact absurd (List.cons.inj h).1 he
              · rename_i h; rw [(List.cons.inj h).1, (List.cons.inj h).2]
            rcases cluster_flags (e :: es) (occs ++ [⟨['-', c], none⟩]) o' d false hsep'.2 hd with
              ⟨occs', x, h1, h2⟩ | ⟨occs', o'', n', h1, h2, h3, h4⟩
            · exact .inl ⟨occs', x, e1.trans h1, h2⟩
            · refine .inr ⟨occs', o'', n', e1.trans h1, h2, hsep'.1, ?_⟩
              rw [h4, List.append_assoc]
              rfl

/-- `-vv…` is as many times `-v` -/
theorem cluster_verbose : ∀ (k : Nat) (occs : List Occ) (o : Opt), findOpt opts "-v".toList = some o →
    cluster opts occs o "-v".toList false (List.replicate (k + 1) 'v') =
      .opened (occs ++ List.replicate (k + 1) ⟨"-v".toList, none⟩) o "-v".toList
  | k, occs, o, hf => by
    have hv : "-v".toList = ['-', 'v'] := rfl
    rw [hv] at hf ⊢
    have ho := hs.short 'v' o hf
    have hsn : shortName ['-', 'v'] ≠ false := by decide
    cases k with
    | zero =>
      rw [show List.replicate (0 + 1) 'v' = ['v'] from rfl, cluster.eq_def]
      dsimp only
      rw [if_neg ho, if_neg hsn, if_neg (by decide), hf]
      rfl
    | succ k =>
      rw [show List.replicate (k + 1 + 1) 'v' = 'v' :: 'v' :: List.replicate k 'v' from rfl, cluster.eq_def]
      dsimp only
      rw [if_neg ho, if_neg hsn, if_neg (by decide), hf]
      dsimp only
      have := cluster_verbose k (occs ++ [⟨['-', 'v'], none⟩]) o hf
      rw [hv] at this
      refine Eq.trans (b := cluster opts (occs ++ [⟨['-', 'v'], none⟩]) o ['-', 'v'] false (List.replicate (k + 1) 'v')) rfl ?_
      rw [this, List.append_assoc]
      rfl

/-! ## Consuming options -/

omit hs in
/-- an option whose value, if any, is the next word -/
theorem consume_opened {kind : Positional} {ph : Phase} {w : Str} {o : Opt} {n : Str} {e : Option (Bool × Str)}
    {rest : List (Str × Mark)} {occs : List Occ} {o' : Opt} {n' : Str}
    (he : (match e with
      | none => Cluster.opened [] o n
      | some (sep, text) => cluster opts [] o n sep text) = .opened occs o' n') (ho : o'.action ≠ .store) :
    consume opts kind ph ((w, .option (some o) n e) :: rest) =
      (consume opts kind ph.stop rest).add (occs ++ [⟨n', none⟩]) false := by
  rw [consume.eq_def]
  cases e with
  | none =>
    obtain ⟨rfl, rfl, rfl⟩ := Cluster.opened.inj he
    dsimp only
    rw [if_neg ho]
  | some p =>
    obtain ⟨sep, text⟩ := p
    dsimp only at he ⊢
    rw [he]
    dsimp only
    rw [if_neg ho]

omit hs in
theorem consume_value {kind : Positional} {ph : Phase} {w : Str} {o : Opt} {n x : Str} {rest : List (Str × Mark)}
    (ho : o.action = .store) :
    consume opts kind ph ((w, .option (some o) n none) :: (x, .arg) :: rest) =
      (consume opts kind ph.stop rest).add [⟨n, some x⟩] false := by
  rw [consume.eq_def]
  dsimp only
  rw [if_pos ho]
  rfl

omit hs in
theorem consume_closed {kind : Positional} {ph : Phase} {w : Str} {o : Opt} {n text : Str} {sep : Bool}
    {rest : List (Str × Mark)} {occs : List Occ} {x : Bool} (he : cluster opts [] o n sep text = .closed occs x) :
    consume opts kind ph ((w, .option (some o) n (some (sep, text))) :: rest) =
      (consume opts kind ph.stop rest).add occs x := by
  rw [consume.eq_def]
  dsimp only
  rw [he]

omit hs in
theorem consume_missing {kind : Positional} {ph : Phase} {w : Str} {o : Opt} {n : Str} {rest : List (Str × Mark)}
    (ho : o.action = .store) (hr : ∀ x rest', rest ≠ (x, .arg) :: rest') :
    consume opts kind ph ((w, .option (some o) n none) :: rest) =
      (consume opts kind ph.stop rest).add [⟨n, none⟩] false := by
  rw [consume.eq_def]
  dsimp only
  rw [if_pos ho]
  split
  · rename_i x rest'
    exact absurd rfl (hr x rest')
  · rfl

omit hs in
/-- an option without a value is a flag -/
theorem fits_flag {n : Str} (h : Fits v ⟨n, none⟩) : n ∈ v.flags.map String.toList := by
  rcases h with ⟨_, _, h⟩ | ⟨h, _⟩
  · cases h
  · exact h

omit hs in
/-- an option that ends a word of options with one dash -/
theorem consume_short {kind : Positional} {ph : Phase} {w : Str} {o : Opt} {n text : Str} {sep : Bool}
    {rest : List (Str × Mark)} {occs : List Occ} {o' : Opt} {n' : Str}
    (he : cluster opts [] o n sep text = .opened occs o' n') (ho : o'.action ≠ .store) :
    consume opts kind ph ((w, .option (some o) n (some (sep, text))) :: rest) =
      (consume opts kind ph.stop rest).add (occs ++ [⟨n', none⟩]) false := consume_opened he ho

/-- an accepted option: the words it is written with, and what follows -/
theorem consume_option {kind : Positional} {ph : Phase} {w : Str} {ws : List Str} {o : Opt} {n : Str}
    {e : Option (Bool × Str)} {ms : List (Str × Mark)} (hw : w ≠ "--".toList)
    (hp : parseOptional negative opts w = .ok (.option (some o) n e)) (hm : marks negative opts ws = .ok ms)
    (hx : (consume opts kind ph ((w, .option (some o) n e) :: ms)).extras = false)
    (hf : ∀ occ ∈ (consume opts kind ph ((w, .option (some o) n e) :: ms)).occs, Fits v occ) :
    ∃ w₁ rest occs ms', w :: ws = w₁ ++ rest ∧ rest.length ≤ ws.length ∧ OptionWords negative v w₁ occs ∧
      marks negative opts rest = .ok ms' ∧
      consume opts kind ph ((w, .option (some o) n e) :: ms) = (consume opts kind ph.stop ms').add occs false := by
  have hc := parse_cases (negative := negative) hs hw
  rw [hp] at hc
  obtain ⟨_, ho, hc⟩ := hc
  rcases hc with ⟨rfl, hn⟩ | ⟨l, x, rfl, rfl, hn⟩ | ⟨c, t, hc, rfl, rfl, ht, rfl⟩
  · by_cases ha : o.action = .store
    · by_cases hr : ∃ x rest', ms = (x, .arg) :: rest'
      · obtain ⟨x, rest', rfl⟩ := hr
        rw [consume_value ha] at hx hf ⊢
        have hv := hs.onlyValues n o ho ha
        match ws, hm with
        | [], hm => rw [marks] at hm; cases Except.ok.inj hm
        | y :: ys, hm =>
          rcases marks_cons_ok hm with ⟨_, h⟩ | ⟨hy, m, ms', h1, h2, h3⟩
          · cases (List.cons.inj h).1
          · have h4 := (List.cons.inj h3).1
            obtain rfl := (List.cons.inj h3).2
            obtain rfl := (Prod.mk.inj h4).1
            obtain rfl := (Prod.mk.inj h4).2
            have hpl := parse_cases (negative := negative) hs hy
            rw [h1] at hpl
            exact ⟨[w, x], ys, [⟨n, some x⟩], rest', rfl, Nat.le_succ _, .value hn hv hpl .nil, h2, rfl⟩
      · rw [consume_missing ha (fun x r h => hr ⟨x, r, h⟩)] at hf
        have hv := hs.onlyValues n o ho ha
        have := fits_flag (hf ⟨n, none⟩ (by unfold Split.add; simp))
        exact absurd hv (hs.apart n this)
    · rw [consume_opened rfl ha] at hx hf ⊢
      have := fits_flag (hf ⟨n, none⟩ (by unfold Split.add; simp))
      exact ⟨[w], ws, [⟨n, none⟩], ms, rfl, Nat.le_refl _, .flag hn this .nil, hm, rfl⟩
  · by_cases ha : o.action = .store
    · rw [consume_closed (cluster_store ha)] at hx hf ⊢
      exact ⟨[l ++ '=' :: x], ws, [⟨n, some x⟩], ms, rfl, Nat.le_refl _, .joined hn (hs.onlyValues n o ho ha) .nil, hm, rfl⟩
    · exfalso
      by_cases hsn : ∃ c, c ≠ '-' ∧ n = ['-', c]
      · obtain ⟨c, hc, rfl⟩ := hsn
        rcases cluster_flags hs x [] o c true hc ho with ⟨occs', y, h1, h2⟩ | ⟨_, _, _, _, _, h, _⟩
        · rw [consume_closed h1] at hx hf
          have hy : y = false := by
            unfold Split.add at hx
            simp at hx
            exact hx.1
          obtain ⟨bad, hb, hbad⟩ := h2 hy
          exact hbad (hf bad (by unfold Split.add; exact List.mem_append_left _ hb))
        · cases h
      · have hsn' : shortName n = false := by
          rcases hs.shape n hn.1 with ⟨h, _⟩ | h
          · obtain ⟨cs, rfl⟩ := long_iff.1 h
            rfl
          · exact absurd h hsn
        have hcl : cluster opts [] o n true x = .closed [⟨n, some x⟩] false := by
          cases x with
          | nil => rw [cluster, if_neg ha]
          | cons c cs => rw [cluster.eq_def]; dsimp only; rw [if_neg ha, if_pos hsn']
        rw [consume_closed hcl] at hf
        exact ha (fits_value hs ho (hf ⟨n, some x⟩ (by unfold Split.add; simp)))
  · rcases cluster_flags hs t [] o c false hc ho with ⟨occs', y, h1, h2⟩ | ⟨occs', o', n', h1, h2, _, h4⟩
    · exfalso
      rw [consume_closed h1] at hx hf
      have hy : y = false := by
        unfold Split.add at hx
        simp at hx
        exact hx.1
      obtain ⟨bad, hb, hbad⟩ := h2 hy
      exact hbad (hf bad (by unfold Split.add; exact List.mem_append_left _ hb))
    · rw [consume_short h1 h2, h4] at hx hf ⊢
      have hv : ∀ d ∈ c :: t, d = 'v' := by
        intro d hd
        have hmem : (⟨['-', d], none⟩ : Occ) ∈ (c :: t).map fun d => ⟨['-', d], none⟩ := List.mem_map.2 ⟨d, hd, rfl⟩
        have hfl := fits_flag (hf ⟨['-', d], none⟩ (by
          unfold Split.add
          exact List.mem_append_left _ hmem))
        by_cases hdd : d = '-'
        · exfalso
          subst hdd
          refine dashes_not_name hs ?_
          unfold Vocabulary.names
          rw [List.map_append, List.map_append]
          exact List.mem_append_left _ (List.mem_append_right _ hfl)
        · have := hs.shortFlag _ hfl (by unfold shortName; simpa using hdd)
          have : ['-', d] = ['-', 'v'] := this
          simpa using this
      obtain ⟨d, ds, rfl⟩ := List.exists_cons_of_ne_nil ht
      have hrep : c :: d :: ds = List.replicate (ds.length + 2) 'v' := List.eq_replicate_iff.2 ⟨rfl, hv⟩
      refine ⟨['-' :: c :: d :: ds], ws, List.replicate (ds.length + 2) ⟨"-v".toList, none⟩, ms, rfl, Nat.le_refl _, ?_, hm, ?_⟩
      · rw [hrep]
        have := OptionWords.verbose (negative := negative) (v := v) (k := ds.length) .nil
        rwa [List.append_nil] at this
      · rw [List.nil_append]
        have : (⟨['-', c], none⟩ : Occ) :: (d :: ds).map (fun d => ⟨['-', d], none⟩) =
            (c :: d :: ds).map fun d => ⟨['-', d], none⟩ := rfl
        rw [this, hrep, List.map_replicate]
        rfl

/-- options as they may be written are consumed as what they are -/
theorem consume_optionWords {kind : Positional} {w₁ : List Str} {occs : List Occ} (h : OptionWords negative v w₁ occs)
    {rest : List Str} {ms : List (Str × Mark)} (hm : marks negative opts rest = .ok ms) :
    ∃ ms₁, marks negative opts (w₁ ++ rest) = .ok ms₁ ∧ ∀ ph, consume opts kind ph ms₁ =
      (consume opts kind (if w₁ = [] then ph else ph.stop) ms).add occs false := by
  have stop : ∀ (ph : Phase) (l : List Str), (if l = [] then ph.stop else ph.stop.stop) = ph.stop := by
    intro ph l
    cases ph <;> split <;> rfl
  have add : ∀ (s : Split) (a b : List Occ), (s.add b false).add a false = s.add (a ++ b) false := by
    intro s a b
    unfold Split.add
    simp
  induction h with
  | nil => exact ⟨ms, hm, fun ph => by unfold Split.add; simp⟩
  | @flag w n ws os hn hfl _ ih =>
    obtain ⟨ms₁, h1, h2⟩ := ih
    obtain ⟨o, ho, ha⟩ := hs.flags n hfl
    have hp := parse_names (negative := negative) hs hn
    rw [ho] at hp
    refine ⟨_, marks_cons (names_ne_dashes hs hn) hp h1, fun ph => ?_⟩
    rw [consume_opened rfl ha, h2, stop, add, if_neg (by simp)]
    rfl
  | @value w n x ws os hn hv hx _ ih =>
    obtain ⟨ms₁, h1, h2⟩ := ih
    obtain ⟨o, ho, ha⟩ := hs.values n hv
    have hp := parse_names (negative := negative) hs hn
    rw [ho] at hp
    refine ⟨_, marks_cons (names_ne_dashes hs hn) hp (marks_cons hx.1 (parse_plain hs hx) h1), fun ph => ?_⟩
    rw [consume_value ha, h2, stop, add, if_neg (by simp)]
    rfl
  | @joined w n x ws os hn hv _ ih =>
    obtain ⟨ms₁, h1, h2⟩ := ih
    obtain ⟨o, ho, ha⟩ := hs.values n hv
    have hp := parse_joined (negative := negative) (x := x) hs hn
    rw [ho] at hp
    have hd : w ++ '=' :: x ≠ "--".toList := by
      intro h
      have : '=' ∈ "--".toList := h ▸ (by simp)
      exact absurd this (by decide)
    refine ⟨_, marks_cons hd hp h1, fun ph => ?_⟩
    rw [consume_closed (cluster_store ha), h2, stop, add, if_neg (by simp)]
    rfl
  | @verbose k ws os _ ih =>
    obtain ⟨ms₁, h1, h2⟩ := ih
    obtain ⟨o, ho, ha⟩ := hs.flags _ hs.verbose
    have hp := parse_verbose (negative := negative) hs k
    rw [ho] at hp
    have hd : '-' :: List.replicate (k + 2) 'v' ≠ "--".toList := by
      intro h
      have := congrArg (fun l => l[1]?) h
      simp at this
    refine ⟨_, marks_cons hd hp h1, fun ph => ?_⟩
    rw [consume_short (cluster_verbose hs k [] o ho) ha, h2, stop, add, if_neg (by simp), List.nil_append,
      ← List.replicate_succ']

end

end Sigstore.Args
