import Verif.Model.Argv
import Verif.Spec.Argv
import Verif.Lemmas.Args

/-!
# Lemmas about the words of the command line
-/

namespace Sigstore.Args

open Sigstore.Cli Sigstore.Spec

/-! ## Names -/

/-- the names in a table are those of a vocabulary, and look like options -/
structure Speaks (opts : List Opt) (v : Vocabulary) : Prop where
  names : ∀ n, n ∈ optionNames opts ↔ n ∈ v.names
  nodup : (optionNames opts).Nodup
  shape : ∀ n ∈ v.names, ("--".toList <+: n ∧ "--".toList ≠ n) ∨ ∃ c, c ≠ '-' ∧ n = ['-', c]
  noEq : ∀ n ∈ v.names, '=' ∉ n
  values : ∀ n ∈ v.values.map String.toList, ∃ o, findOpt opts n = some o ∧ o.action = .store
  flags : ∀ n ∈ v.flags.map String.toList, ∃ o, findOpt opts n = some o ∧ o.action ≠ .store
  onlyValues : ∀ n o, findOpt opts n = some o → o.action = .store → n ∈ v.values.map String.toList
  short : ∀ c o, findOpt opts ['-', c] = some o → o.action ≠ .store
  shortFlag : ∀ n ∈ v.flags.map String.toList, shortName n = true → n = "-v".toList
  verbose : "-v".toList ∈ v.flags.map String.toList
  apart : ∀ n ∈ v.flags.map String.toList, n ∉ v.values.map String.toList
  helpName : "--help".toList ∈ v.names
  verboseName : "--verbose".toList ∈ v.names

theorem mem_optionNames {opts : List Opt} {n : Str} : n ∈ optionNames opts ↔ ∃ o, findOpt opts n = some o := by
  unfold optionNames findOpt
  rw [List.mem_flatMap]
  constructor
  · rintro ⟨o, ho, hn⟩
    cases h : opts.find? fun o => decide (n ∈ o.names) with
    | some o => exact ⟨o, rfl⟩
    | none =>
      have := List.find?_eq_none.1 h o ho
      simp [hn] at this
  · rintro ⟨o, h⟩
    refine ⟨o, List.mem_of_find?_eq_some h, ?_⟩
    simpa using List.find?_some h

/-! ## `=` -/

theorem partitionEq_none : ∀ {w : Str}, '=' ∉ w → partitionEq w = (w, none)
  | [], _ => rfl
  | c :: cs, h => by
    have h1 : c ≠ '=' := fun e => h (e ▸ List.mem_cons_self)
    have h2 : '=' ∉ cs := fun e => h (List.mem_cons_of_mem _ e)
    rw [partitionEq, if_neg h1, partitionEq_none h2]

theorem partitionEq_some : ∀ {l v : Str}, '=' ∉ l → partitionEq (l ++ '=' :: v) = (l, some v)
  | [], _, _ => by simp [partitionEq]
  | c :: cs, v, h => by
    have h1 : c ≠ '=' := fun e => h (e ▸ List.mem_cons_self)
    have h2 : '=' ∉ cs := fun e => h (List.mem_cons_of_mem _ e)
    rw [List.cons_append, partitionEq, if_neg h1, partitionEq_some h2]

theorem beforeEq_none : ∀ {w : Str}, '=' ∉ w → beforeEq w = w
  | [], _ => rfl
  | c :: cs, h => by
    have h1 : c ≠ '=' := fun e => h (e ▸ List.mem_cons_self)
    have h2 : '=' ∉ cs := fun e => h (List.mem_cons_of_mem _ e)
    have := beforeEq_none h2
    unfold beforeEq at this ⊢
    rw [List.takeWhile_cons_of_pos (by simpa using h1), this]

theorem beforeEq_some : ∀ {l v : Str}, '=' ∉ l → beforeEq (l ++ '=' :: v) = l
  | [], _, _ => by unfold beforeEq; rw [List.nil_append, List.takeWhile_cons_of_neg (by simp)]
  | c :: cs, v, h => by
    have h1 : c ≠ '=' := fun e => h (e ▸ List.mem_cons_self)
    have h2 : '=' ∉ cs := fun e => h (List.mem_cons_of_mem _ e)
    have := beforeEq_some (v := v) h2
    unfold beforeEq at this ⊢
    rw [List.cons_append, List.takeWhile_cons_of_pos (by simpa using h1), this]

/-- a word has no `=`, or is split at the first one -/
theorem eq_cases (w : Str) : '=' ∉ w ∨ ∃ l v, '=' ∉ l ∧ w = l ++ '=' :: v := by
  induction w with
  | nil => exact .inl (fun h => nomatch h)
  | cons c cs ih =>
    by_cases hc : c = '='
    · exact .inr ⟨[], cs, (fun h => nomatch h), by rw [hc]; rfl⟩
    · rcases ih with h | ⟨l, v, hl, rfl⟩
      · left
        rw [List.mem_cons, not_or]
        exact ⟨Ne.symm hc, h⟩
      · refine .inr ⟨c :: l, v, ?_, rfl⟩
        rw [List.mem_cons, not_or]
        exact ⟨Ne.symm hc, hl⟩

/-! ## What a word is -/

section
variable {negative : Str → Bool} {opts : List Opt} {v : Vocabulary} (hs : Speaks opts v)
include hs

theorem names_noEq {w n : Str} (h : v.Names w n) : '=' ∉ w := by
  obtain ⟨hn, rfl | ⟨_, _, hp, _⟩⟩ := h
  · exact hs.noEq _ hn
  · intro he; exact hs.noEq _ hn (hp.subset he)

/-- names that are found by their beginning -/
theorem filter_prefix (l : Str) :
    (∀ n ∈ v.names, ¬ l <+: n) ∧ (optionNames opts).filter (fun n => l.isPrefixOf n) = [] ∨
    (∃ n, n ∈ v.names ∧ l <+: n ∧ (∀ m ∈ v.names, l <+: m → m = n) ∧
      (optionNames opts).filter (fun n => l.isPrefixOf n) = [n]) ∨
    (∃ m ∈ v.names, ∃ n ∈ v.names, m ≠ n ∧ l <+: m ∧ l <+: n) ∧
      ∃ m n rest, (optionNames opts).filter (fun n => l.isPrefixOf n) = m :: n :: rest := by
  have mem : ∀ n, n ∈ (optionNames opts).filter (fun n => l.isPrefixOf n) ↔ n ∈ v.names ∧ l <+: n := by
    intro n
    rw [List.mem_filter, hs.names, List.isPrefixOf_iff_prefix]
  have nd := hs.nodup.filter fun n => l.isPrefixOf n
  cases h : (optionNames opts).filter (fun n => l.isPrefixOf n) with
  | nil =>
    refine .inl ⟨fun n hn hp => ?_, rfl⟩
    have := (mem n).2 ⟨hn, hp⟩
    rw [h] at this; cases this
  | cons m t =>
    rw [h] at mem nd
    cases t with
    | nil =>
      have hm := (mem m).1 List.mem_cons_self
      refine .inr (.inl ⟨m, hm.1, hm.2, fun k hk hp => ?_, rfl⟩)
      exact List.mem_singleton.1 ((mem k).2 ⟨hk, hp⟩)
    | cons n r =>
      have hm := (mem m).1 List.mem_cons_self
      have hn := (mem n).1 (List.mem_cons_of_mem _ List.mem_cons_self)
      refine .inr (.inr ⟨⟨m, hm.1, n, hn.1, ?_, hm.2, hn.2⟩, m, n, r, rfl⟩)
      rintro rfl
      exact (List.nodup_cons.1 nd).1 List.mem_cons_self

/-- names that are found by their first letter -/
theorem filter_short {c : Char} {cs : Str} (hc : c ≠ '-') (hw : ('-' :: c :: cs) ∉ v.names) :
    optionTuples opts ('-' :: c :: cs) =
      if ['-', c] ∈ v.names then [(['-', c], some (false, cs))] else [] := by
  have other : ∀ n ∈ optionNames opts, n ≠ ['-', c] → List.isPrefixOf ('-' :: c :: cs) n = false := by
    intro n hn hne
    by_contra hp
    rw [Bool.not_eq_false, List.isPrefixOf_iff_prefix] at hp
    have hn' := (hs.names n).1 hn
    rcases hs.shape n hn' with ⟨h, _⟩ | ⟨d, hd, rfl⟩
    · obtain ⟨t, rfl⟩ := hp
      obtain ⟨u, hu⟩ := h
      have := congrArg (fun l => l[1]?) hu
      simp at this
      exact hc this.symm
    · obtain ⟨t, ht⟩ := hp
      have h2 := congrArg List.length ht
      simp only [List.length_append, List.length_cons, List.length_nil] at h2
      obtain ⟨rfl, rfl⟩ : cs = [] ∧ t = [] := by
        constructor
        · exact List.eq_nil_of_length_eq_zero (by omega)
        · exact List.eq_nil_of_length_eq_zero (by omega)
      simp at ht
      exact hne (by rw [ht])
  have key : ∀ l : List Str, (∀ n ∈ l, n ∈ optionNames opts) → l.Nodup →
      (l.filterMap fun n => if n = ['-', c] then some (n, some (false, cs))
        else if ('-' :: c :: cs).isPrefixOf n then some (n, none) else none) =
      if ['-', c] ∈ l then [(['-', c], some (false, cs))] else [] := by
    intro l
    induction l with
    | nil => intro _ _; rfl
    | cons n l ih =>
      intro hl hd
      have ih := ih (fun m hm => hl m (List.mem_cons_of_mem _ hm)) (List.nodup_cons.1 hd).2
      by_cases hn : n = ['-', c]
      · subst hn
        have : ['-', c] ∉ l := (List.nodup_cons.1 hd).1
        rw [if_neg this] at ih
        rw [List.filterMap_cons_some (by rw [if_pos rfl]), ih, if_pos List.mem_cons_self]
      · have hp := other n (hl n List.mem_cons_self) hn
        rw [List.filterMap_cons_none (by rw [if_neg hn, hp]; rfl), ih]
        have : (['-', c] ∈ n :: l) ↔ ['-', c] ∈ l := by
          rw [List.mem_cons]
          exact or_iff_right (Ne.symm hn)
        simp only [this]
  have := key (optionNames opts) (fun _ h => h) hs.nodup
  simp only [hs.names] at this
  rw [← this]
  unfold optionTuples
  split
  · rename_i h
    exact absurd (List.cons.inj (List.cons.inj h).2).1 hc
  · rename_i h
    obtain ⟨rfl, rfl⟩ : c = _ ∧ cs = _ := by
      have := (List.cons.inj h).2
      exact ⟨(List.cons.inj this).1, (List.cons.inj this).2⟩
    rfl
  · rename_i h
    exact absurd rfl (h c cs)

/-- what becomes of a word that is unlike all options -/
def unlike (negative : Str → Bool) (w : Str) : Py Mark :=
  if negative w || w.contains ' ' then .ok .arg else .ok (.option none w none)

theorem dash_not_name : ['-'] ∉ v.names := by
  intro h
  rcases hs.shape _ h with ⟨h, _⟩ | ⟨c, _, h⟩
  · obtain ⟨t, ht⟩ := h
    have := congrArg List.length ht
    simp at this
  · simp at h

theorem dashes_not_name : "--".toList ∉ v.names := by
  intro h
  rcases hs.shape _ h with ⟨_, h⟩ | ⟨c, hc, h⟩
  · exact h rfl
  · have : ['-', '-'] = ['-', c] := h
    simp at this
    exact hc this.symm

omit hs in
theorem partitionEq_fst (w : Str) : (partitionEq w).1 = beforeEq w := by
  rcases eq_cases w with h | ⟨l, x, h, rfl⟩
  · rw [partitionEq_none h, beforeEq_none h]
  · rw [partitionEq_some h, beforeEq_some h]

/-- words that begin with two dashes -/
theorem parseOptional_long {cs : Str} : parseOptional negative opts ('-' :: '-' :: cs) =
    if beforeEq ('-' :: '-' :: cs) ∈ v.names then
      .ok (.option (findOpt opts (beforeEq ('-' :: '-' :: cs))) (beforeEq ('-' :: '-' :: cs))
        ((partitionEq ('-' :: '-' :: cs)).2.map fun x => (true, x)))
    else
      match (optionNames opts).filter fun n => (beforeEq ('-' :: '-' :: cs)).isPrefixOf n with
      | [] => unlike negative ('-' :: '-' :: cs)
      | [n] => .ok (.option (findOpt opts n) n ((partitionEq ('-' :: '-' :: cs)).2.map fun x => (true, x)))
      | _ :: _ :: _ => .error (.systemExit 2) := by
  generalize hw : '-' :: '-' :: cs = w
  have tuples : (match optionTuples opts w with
        | [] => if negative w || w.contains ' ' then .ok .arg else .ok (.option none w none)
        | [(n, e)] => .ok (.option (findOpt opts n) n e)
        | _ :: _ :: _ => .error (.systemExit 2) : Py Mark) =
      match (optionNames opts).filter fun n => (beforeEq w).isPrefixOf n with
      | [] => unlike negative w
      | [n] => .ok (.option (findOpt opts n) n ((partitionEq w).2.map fun x => (true, x)))
      | _ :: _ :: _ => .error (.systemExit 2) := by
    have h : optionTuples opts w = ((optionNames opts).filter fun n => (beforeEq w).isPrefixOf n).map
        fun n => (n, (partitionEq w).2.map fun x => (true, x)) := by
      rw [← partitionEq_fst]
      subst hw
      rfl
    rw [h]
    rcases (optionNames opts).filter (fun n => (beforeEq w).isPrefixOf n) with _ | ⟨a, _ | ⟨b, t⟩⟩ <;> rfl
  have e : parseOptional negative opts w =
      if w ∈ optionNames opts then .ok (.option (findOpt opts w) w none)
      else
        match partitionEq w with
        | (l, some x) => if l ∈ optionNames opts then .ok (.option (findOpt opts l) l (some (true, x))) else
            match (optionNames opts).filter fun n => (beforeEq w).isPrefixOf n with
            | [] => unlike negative w
            | [n] => .ok (.option (findOpt opts n) n ((partitionEq w).2.map fun x => (true, x)))
            | _ :: _ :: _ => .error (.systemExit 2)
        | (_, none) =>
            match (optionNames opts).filter fun n => (beforeEq w).isPrefixOf n with
            | [] => unlike negative w
            | [n] => .ok (.option (findOpt opts n) n ((partitionEq w).2.map fun x => (true, x)))
            | _ :: _ :: _ => .error (.systemExit 2) := by
    rw [← tuples]
    subst hw
    unfold parseOptional
    dsimp only
    rw [if_neg (by simp : ¬ ('-' : Char) ≠ '-'), if_neg (by simp : ¬ ('-' :: cs = []))]
    rfl
  rw [e]
  simp only [hs.names]
  rcases eq_cases w with h | ⟨l, x, h, hx⟩
  · rw [partitionEq_none h, beforeEq_none h]
    rfl
  · have hn : w ∉ v.names := by
      intro hm
      refine hs.noEq w hm ?_
      rw [hx]
      exact List.mem_append_right _ List.mem_cons_self
    rw [if_neg hn, hx, partitionEq_some h, beforeEq_some h]
    rfl

/-- what is joined to an option with one dash -/
def shortExplicit (cs : Str) : Option (Bool × Str) :=
  match cs with
  | [] => none
  | d :: ds => if d = '=' then some (true, ds) else some (false, d :: ds)

/-- words that begin with one dash -/
theorem parseOptional_short {c : Char} {cs : Str} (hc : c ≠ '-') : parseOptional negative opts ('-' :: c :: cs) =
    if ['-', c] ∈ v.names then .ok (.option (findOpt opts ['-', c]) ['-', c] (shortExplicit cs))
    else unlike negative ('-' :: c :: cs) := by
  have short : ∀ {n : Str} {t : Str}, n ∈ v.names → n = '-' :: c :: t → t = [] := by
    intro n t hn hm
    rcases hs.shape n hn with ⟨⟨u, hu⟩, _⟩ | ⟨d, _, hd⟩
    · rw [hm] at hu
      have hu : '-' :: '-' :: u = '-' :: c :: t := hu
      simp at hu
      exact absurd hu.1.symm hc
    · rw [hm] at hd
      simp at hd
      exact hd.2
  by_cases hw : ('-' :: c :: cs) ∈ v.names
  · obtain rfl := short hw rfl
    rw [if_pos hw]
    unfold parseOptional
    dsimp only
    rw [if_neg (by simp : ¬ ('-' : Char) ≠ '-'), if_pos ((hs.names _).2 hw)]
    rfl
  · unfold parseOptional
    dsimp only
    rw [if_neg (by simp : ¬ ('-' : Char) ≠ '-'), if_neg (mt (hs.names _).1 hw), if_neg (by simp : ¬ (c :: cs = [])), filter_short hs hc hw]
    have hl : ∀ (l x : Str), '-' :: c :: cs = l ++ '=' :: x → '=' ∉ l → (l ∈ optionNames opts ↔ ['-', c] ∈ v.names ∧ cs = '=' :: x) := by
      intro l x h hx
      rw [hs.names]
      match l, h with
      | [], h => simp at h
      | [a], h =>
        simp at h
        obtain ⟨rfl, rfl, rfl⟩ := h
        refine iff_of_false (dash_not_name hs) ?_
        rintro ⟨h, _⟩
        exact hs.noEq _ h (by simp)
      | a :: b :: l, h =>
        simp at h
        obtain ⟨rfl, rfl, rfl⟩ := h
        constructor
        · intro hm
          obtain rfl := short hm rfl
          exact ⟨hm, rfl⟩
        · rintro ⟨hm, h⟩
          match l, h with
          | [], _ => exact hm
          | d :: l, h =>
            simp at h
            exact absurd (h.1 ▸ (by simp)) hx
    by_cases hm : ['-', c] ∈ v.names
    · rw [if_pos hm, if_pos hm]
      match cs, hw, hl with
      | [], hw, _ => exact absurd hm hw
      | d :: ds, hw, hl =>
        rcases eq_cases ('-' :: c :: d :: ds) with h | ⟨l, x, h, hx⟩
        · rw [partitionEq_none h]
          have hd : d ≠ '=' := by
            rintro rfl
            exact h (by simp)
          unfold shortExplicit
          dsimp only
          rw [if_neg hd]
        · rw [hx, partitionEq_some h]
          unfold shortExplicit
          dsimp only
          split
          · rename_i h'
            obtain ⟨_, e⟩ := (hl _ _ hx h).1 h'
            obtain ⟨rfl, rfl⟩ := List.cons.inj e
            have : l = ['-', c] := by
              have := hx
              rw [show '-' :: c :: '=' :: ds = ['-', c] ++ '=' :: ds from rfl] at this
              exact (List.append_cancel_right this).symm
            subst this
            rfl
          · rename_i h'
            rw [if_neg]
            rintro rfl
            refine h' ?_
            have : l = ['-', c] := by
              match l, hx with
              | [], hx => simp at hx
              | [a], hx =>
                simp at hx
                obtain ⟨rfl, rfl, rfl⟩ := hx
                exact absurd (hs.noEq _ hm) (by simp)
              | [a, b], hx =>
                simp at hx
                rw [hx.1, hx.2.1]
              | a :: b :: e :: l, hx =>
                simp at hx
                exact absurd (hx.2.2.1 ▸ (by simp)) h
            subst this
            exact (hs.names _).2 hm
    · rw [if_neg hm, if_neg hm]
      dsimp only
      rcases eq_cases ('-' :: c :: cs) with h | ⟨l, x, h, hx⟩
      · rw [partitionEq_none h]
        rfl
      · rw [hx, partitionEq_some h]
        dsimp only
        rw [if_neg (fun h' => hm ((hl _ _ hx h).1 h').1)]
        rfl

theorem two_long {l n : Str} (hl : l <+: "--".toList) : ¬ ∀ m ∈ v.names, l <+: m → m = n := by
  intro h
  have h1 := h _ hs.helpName (hl.trans (by decide))
  have h2 := h _ hs.verboseName (hl.trans (by decide))
  exact absurd (h1.trans h2.symm) (by decide)

theorem names_ne_dashes {w n : Str} (h : v.Names w n) : w ≠ "--".toList := by
  rintro rfl
  obtain ⟨hn, rfl | ⟨_, _, _, hu⟩⟩ := h
  · exact dashes_not_name hs hn
  · exact two_long hs (List.prefix_refl _) hu

omit hs in
theorem long_iff {w : Str} : "--".toList <+: w ↔ ∃ cs, w = '-' :: '-' :: cs := by
  constructor
  · rintro ⟨t, rfl⟩; exact ⟨t, rfl⟩
  · rintro ⟨cs, rfl⟩; exact ⟨cs, rfl⟩

omit hs in
theorem beforeEq_dashes (cs : Str) : "--".toList <+: beforeEq ('-' :: '-' :: cs) := by
  unfold beforeEq
  rw [List.takeWhile_cons_of_pos (by decide), List.takeWhile_cons_of_pos (by decide)]
  exact ⟨_, rfl⟩

/-- the name of an option, or an abbreviation, is that option -/
theorem parse_names {w n : Str} (h : v.Names w n) :
    parseOptional negative opts w = .ok (.option (findOpt opts n) n none) := by
  have he := names_noEq hs h
  obtain ⟨hn, rfl | ⟨hw, hp, hwn, hu⟩⟩ := h
  · rcases hs.shape w hn with ⟨h, _⟩ | ⟨c, hc, rfl⟩
    · obtain ⟨cs, rfl⟩ := long_iff.1 h
      rw [parseOptional_long hs, beforeEq_none he, if_pos hn, partitionEq_none he]
      rfl
    · rw [parseOptional_short hs hc, if_pos hn]
      rfl
  · obtain ⟨cs, rfl⟩ := long_iff.1 hp
    rw [parseOptional_long hs, beforeEq_none he, if_neg hw, partitionEq_none he]
    rcases filter_prefix hs ('-' :: '-' :: cs) with ⟨h, _⟩ | ⟨m, hm, hp', _, hf⟩ | ⟨⟨a, ha, b, hb, hab, h1, h2⟩, _⟩
    · exact absurd hwn (h n hn)
    · rw [hf]
      obtain rfl := hu m hm hp'
      rfl
    · exact absurd ((hu a ha h1).trans (hu b hb h2).symm) hab

/-- an option with its value -/
theorem parse_joined {w n x : Str} (h : v.Names w n) :
    parseOptional negative opts (w ++ '=' :: x) = .ok (.option (findOpt opts n) n (some (true, x))) := by
  have he := names_noEq hs h
  obtain ⟨hn, rfl | ⟨hw, hp, hwn, hu⟩⟩ := h
  · rcases hs.shape w hn with ⟨h, _⟩ | ⟨c, hc, rfl⟩
    · obtain ⟨cs, rfl⟩ := long_iff.1 h
      rw [List.cons_append, List.cons_append, parseOptional_long hs, ← List.cons_append, ← List.cons_append,
        beforeEq_some he, if_pos hn, partitionEq_some he]
      rfl
    · change parseOptional negative opts ('-' :: c :: '=' :: x) = _
      rw [parseOptional_short hs hc, if_pos hn]
      rfl
  · obtain ⟨cs, rfl⟩ := long_iff.1 hp
    rw [List.cons_append, List.cons_append, parseOptional_long hs, ← List.cons_append, ← List.cons_append,
      beforeEq_some he, if_neg hw, partitionEq_some he]
    rcases filter_prefix hs ('-' :: '-' :: cs) with ⟨h, _⟩ | ⟨m, hm, hp', _, hf⟩ | ⟨⟨a, ha, b, hb, hab, h1, h2⟩, _⟩
    · exact absurd hwn (h n hn)
    · rw [hf]
      obtain rfl := hu m hm hp'
      rfl
    · exact absurd ((hu a ha h1).trans (hu b hb h2).symm) hab

/-- `-vv…` -/
theorem parse_verbose (k : Nat) : parseOptional negative opts ('-' :: List.replicate (k + 2) 'v') =
    .ok (.option (findOpt opts "-v".toList) "-v".toList (some (false, List.replicate (k + 1) 'v'))) := by
  have hv : ['-', 'v'] ∈ v.names := by
    unfold Vocabulary.names
    rw [List.map_append, List.map_append]
    exact List.mem_append_left _ (List.mem_append_right _ hs.verbose)
  rw [show List.replicate (k + 2) 'v' = 'v' :: 'v' :: List.replicate k 'v' from rfl, parseOptional_short hs (by decide),
    if_pos hv]
  rfl

omit hs in
theorem unlike_arg {w : Str} (h : negative w = true ∨ ' ' ∈ w) : unlike negative w = .ok .arg := by
  unfold unlike
  rw [if_pos]
  simpa using h

/-- plain words are arguments -/
theorem parse_plain {w : Str} (h : v.Plain negative w) : parseOptional negative opts w = .ok .arg := by
  obtain ⟨_, h⟩ := h
  match w with
  | [] => rfl
  | c :: cs =>
    by_cases hc : c = '-'
    · subst hc
      rcases h with h | h | ⟨h1, h2, h3⟩
      · exact absurd rfl h
      · obtain rfl : cs = [] := by
          have : '-' :: cs = ['-'] := h
          simpa using this
        unfold parseOptional
        dsimp only
        rw [if_neg (by simp : ¬ ('-' : Char) ≠ '-'), if_neg (mt (hs.names _).1 (dash_not_name hs)), if_pos rfl]
      · match cs with
        | [] =>
          unfold parseOptional
          dsimp only
          rw [if_neg (by simp : ¬ ('-' : Char) ≠ '-'), if_neg (mt (hs.names _).1 (dash_not_name hs)), if_pos rfl]
        | d :: ds =>
          by_cases hd : d = '-'
          · subst hd
            have h3 := h3 ⟨ds, rfl⟩
            rw [parseOptional_long hs, if_neg (fun hm => h3 _ hm (List.prefix_refl _))]
            rcases filter_prefix hs (beforeEq ('-' :: '-' :: ds)) with ⟨_, hf⟩ | ⟨m, hm, hp, _⟩ | ⟨⟨a, ha, b, hb, hab, h4, _⟩, _⟩
            · rw [hf]; exact unlike_arg h1
            · exact absurd hp (h3 m hm)
            · exact absurd h4 (h3 a ha)
          · rw [parseOptional_short hs hd, if_neg (fun hm => h2 ['-', d] hm rfl)]
            exact unlike_arg h1
    · unfold parseOptional
      dsimp only
      rw [if_pos hc]

/-- ambiguous words are an error -/
theorem parse_ambiguous {w : Str} (h : v.Ambiguous w) : parseOptional negative opts w = .error (.systemExit 2) := by
  obtain ⟨hp, hn, a, ha, b, hb, hab, h1, h2⟩ := h
  obtain ⟨cs, rfl⟩ := long_iff.1 hp
  rw [parseOptional_long hs, if_neg hn]
  rcases filter_prefix hs (beforeEq ('-' :: '-' :: cs)) with ⟨h, _⟩ | ⟨m, _, _, hu, _⟩ | ⟨_, x, y, z, hf⟩
  · exact absurd h1 (h a ha)
  · exact absurd ((hu a ha h1).trans (hu b hb h2).symm) hab
  · rw [hf]

/-- what every word is -/
theorem parse_cases {w : Str} (hw : w ≠ "--".toList) :
    match parseOptional negative opts w with
    | .error e => e = .systemExit 2 ∧ v.Ambiguous w
    | .ok .arg => v.Plain negative w
    | .ok .dashes => False
    | .ok (.option none _ _) => ¬ v.Ambiguous w
    | .ok (.option (some o) n e) => ¬ v.Ambiguous w ∧ findOpt opts n = some o ∧
        ((e = none ∧ v.Names w n) ∨ (∃ l x, e = some (true, x) ∧ w = l ++ '=' :: x ∧ v.Names l n) ∨
          ∃ c t, c ≠ '-' ∧ n = ['-', c] ∧ e = some (false, t) ∧ t ≠ [] ∧ w = '-' :: c :: t) := by
  match w with
  | [] => exact ⟨hw, .inl (by simp)⟩
  | c :: cs =>
    by_cases hc : c = '-'
    · subst hc
      match cs with
      | [] =>
        have : parseOptional negative opts ['-'] = .ok .arg := by
          unfold parseOptional
          dsimp only
          rw [if_neg (by simp : ¬ ('-' : Char) ≠ '-'), if_neg (mt (hs.names _).1 (dash_not_name hs)), if_pos rfl]
        rw [this]
        exact ⟨hw, .inr (.inl rfl)⟩
      | d :: ds =>
        by_cases hd : d = '-'
        · subst hd
          rw [parseOptional_long hs]
          by_cases hn : beforeEq ('-' :: '-' :: ds) ∈ v.names
          · rw [if_pos hn]
            have hamb : ¬ v.Ambiguous ('-' :: '-' :: ds) := fun h => h.2.1 hn
            obtain ⟨o, ho⟩ := mem_optionNames.1 ((hs.names _).2 hn)
            rw [ho]
            refine ⟨hamb, ho, ?_⟩
            rcases eq_cases ('-' :: '-' :: ds) with h | ⟨l, x, h, hx⟩
            · rw [beforeEq_none h] at hn
              rw [partitionEq_none h, beforeEq_none h]
              exact .inl ⟨rfl, hn, .inl rfl⟩
            · rw [hx, beforeEq_some h] at hn
              rw [hx, partitionEq_some h, beforeEq_some h]
              exact .inr (.inl ⟨l, x, rfl, rfl, hn, .inl rfl⟩)
          · rw [if_neg hn]
            rcases filter_prefix hs (beforeEq ('-' :: '-' :: ds)) with ⟨h, hf⟩ | ⟨m, hm, hp, hu, hf⟩ | ⟨h, x, y, z, hf⟩
            · rw [hf]
              dsimp only
              have hamb : ¬ v.Ambiguous ('-' :: '-' :: ds) := by
                rintro ⟨_, _, a, ha, _, _, _, h1, _⟩
                exact h a ha h1
              unfold unlike
              split
              · rename_i e he; split at he <;> cases he
              · rename_i he
                split at he
                · rename_i hsp
                  refine ⟨hw, .inr (.inr ⟨by simpa using hsp, ?_, fun _ => h⟩)⟩
                  rintro n hn rfl
                  exact dashes_not_name hs hn
                · cases he
              · rename_i he; split at he <;> cases he
              · exact hamb
              · rename_i he; split at he <;> cases he
            · rw [hf]
              obtain ⟨o, ho⟩ := mem_optionNames.1 ((hs.names _).2 hm)
              have hamb : ¬ v.Ambiguous ('-' :: '-' :: ds) := by
                rintro ⟨_, _, a, ha, b, hb, hab, h1, h2⟩
                exact hab ((hu a ha h1).trans (hu b hb h2).symm)
              dsimp only
              rw [ho]
              refine ⟨hamb, ho, ?_⟩
              have hlong := beforeEq_dashes ds
              rcases eq_cases ('-' :: '-' :: ds) with h | ⟨l, x, h, hx⟩
              · rw [beforeEq_none h] at hn hp hu hlong
                rw [partitionEq_none h]
                exact .inl ⟨rfl, hm, .inr ⟨hn, hlong, hp, hu⟩⟩
              · rw [hx, beforeEq_some h] at hn hp hu hlong
                rw [hx, partitionEq_some h]
                exact .inr (.inl ⟨l, x, rfl, rfl, hm, .inr ⟨hn, hlong, hp, hu⟩⟩)
            · rw [hf]
              exact ⟨rfl, ⟨ds, rfl⟩, hn, h⟩
        · have hamb : ¬ v.Ambiguous ('-' :: d :: ds) := by
            rintro ⟨⟨t, ht⟩, _⟩
            have ht : '-' :: '-' :: t = '-' :: d :: ds := ht
            simp at ht
            exact hd ht.1.symm
          rw [parseOptional_short hs hd]
          by_cases hn : ['-', d] ∈ v.names
          · rw [if_pos hn]
            obtain ⟨o, ho⟩ := mem_optionNames.1 ((hs.names _).2 hn)
            match ds with
            | [] =>
              rw [ho]
              exact ⟨hamb, ho, .inl ⟨rfl, hn, .inl rfl⟩⟩
            | e :: es =>
              unfold shortExplicit
              by_cases he : e = '='
              · subst he
                dsimp only
                rw [ho, if_pos rfl]
                exact ⟨hamb, ho, .inr (.inl ⟨['-', d], es, rfl, rfl, hn, .inl rfl⟩)⟩
              · dsimp only
                rw [ho, if_neg he]
                exact ⟨hamb, ho, .inr (.inr ⟨d, e :: es, hd, rfl, rfl, by simp, rfl⟩)⟩
          · rw [if_neg hn]
            unfold unlike
            split
            · rename_i e he; split at he <;> cases he
            · rename_i he
              split at he
              · rename_i hsp
                refine ⟨hw, .inr (.inr ⟨by simpa using hsp, ?_, ?_⟩)⟩
                · rintro n hm rfl
                  exact hn hm
                · rintro ⟨t, ht⟩
                  have ht : '-' :: '-' :: t = '-' :: d :: ds := ht
                  simp at ht
                  exact absurd ht.1.symm hd
              · cases he
            · rename_i he; split at he <;> cases he
            · exact hamb
            · rename_i he; split at he <;> cases he
    · have : parseOptional negative opts (c :: cs) = .ok .arg := by
        unfold parseOptional
        dsimp only
        rw [if_pos hc]
      rw [this]
      refine ⟨hw, .inl ?_⟩
      simpa using hc

end

end Sigstore.Args
