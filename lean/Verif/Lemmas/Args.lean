import Verif.Spec.Args

/-!
# Parsing the options of one parser
-/

namespace Sigstore.Args

open Sigstore.Cli Sigstore.Spec

/-! ## Switches -/

theorem toLower_eq_iff {l : Char} (hl : l ∈ "yestruonfal10".toList) (c : Char) : c.toLower = l ↔ c = l ∨ c = l.toUpper := by
  have key : ∀ l : Char, ∀ u : Char, l.toUpper = u → u.toLower = l → ¬ (l.val ≥ 'A'.val ∧ l.val ≤ 'Z'.val) →
      (u.val.toNat + 32 = l.val.toNat ∨ (u = l ∧ (l.val.toNat < 97 ∨ 122 < l.val.toNat))) →
      (c.toLower = l ↔ c = l ∨ c = u) := by
    intro l u h1 h2 h3 h4
    constructor
    · intro h
      unfold Char.toLower at h
      split at h
      · rename_i hc
        obtain ⟨ha, hz⟩ := hc
        have ha' : 65 ≤ c.val.toNat := by simpa [UInt32.le_iff_toNat_le] using ha
        have hz' : c.val.toNat ≤ 90 := by simpa [UInt32.le_iff_toNat_le] using hz
        have hv : c.val.toNat + 32 = l.val.toNat := by
          have := congrArg (fun x : Char => x.val.toNat) h
          have e : ('a'.val - 'A'.val : UInt32) = 32 := by decide
          dsimp only at this
          rw [e, UInt32.toNat_add] at this
          have e2 : (32 : UInt32).toNat = 32 := by decide
          rw [e2] at this
          omega
        rcases h4 with h4 | ⟨_, h4⟩
        · exact .inr (Char.ext (UInt32.toNat_inj.1 (by omega)))
        · omega
      · exact .inl h
    · rintro (h | h)
      · subst h
        unfold Char.toLower
        rw [dif_neg h3]
      · subst h; exact h2
  have hl' := hl
  simp only [String.reduceToList, List.mem_cons, List.not_mem_nil, or_false] at hl'
  rcases hl' with rfl | rfl | rfl | rfl | rfl | rfl | rfl | rfl | rfl | rfl | rfl | rfl | rfl <;>
    exact key _ _ rfl (by decide) (by decide) (by decide)

theorem sameWord_iff {w : String} (hw : ∀ l ∈ w.toList, l ∈ "yestruonfal10".toList) (s : Str) :
    SameWord s w ↔ s.map Char.toLower = w.toList := by
  unfold SameWord
  generalize w.toList = ls at hw
  induction s generalizing ls with
  | nil => cases ls <;> simp
  | cons c s ih =>
    cases ls with
    | nil => simp
    | cons l ls =>
      simp only [List.forall₂_cons, List.map_cons, List.cons.injEq]
      rw [ih ls fun x hx => hw x (List.mem_cons_of_mem _ hx), toLower_eq_iff (hw l List.mem_cons_self)]

theorem yes_iff (s : Str) : Yes s ↔ s.map Char.toLower ∈ ["y", "yes", "true", "t", "on", "1"].map String.toList := by
  unfold Yes
  rw [List.mem_map]
  refine exists_congr fun w => and_congr_right fun hw => ?_
  rw [sameWord_iff]
  · exact eq_comm
  · revert w; decide

theorem no_iff (s : Str) : No s ↔ s.map Char.toLower ∈ ["n", "no", "false", "f", "off", "0"].map String.toList := by
  unfold No
  rw [List.mem_map]
  refine exists_congr fun w => and_congr_right fun hw => ?_
  rw [sameWord_iff]
  · exact eq_comm
  · revert w; decide

theorem yes_not_no {s : Str} (h : Yes s) (h' : No s) : False := by
  rw [yes_iff] at h
  rw [no_iff] at h'
  revert h h'
  generalize s.map Char.toLower = t
  intro h h'
  simp only [List.map_cons, List.map_nil, List.mem_cons, List.not_mem_nil, or_false] at h h'
  rcases h with rfl | rfl | rfl | rfl | rfl | rfl <;> revert h' <;> decide

theorem boolify_true_iff (environ : Environ) (x : Str) : boolifyEnv environ x = .ok true ↔ ∃ v, environ x = some v ∧ Yes v := by
  unfold boolifyEnv
  cases environ x with
  | none => simp
  | some v =>
    dsimp only
    by_cases hy : Yes v
    · rw [if_pos ((yes_iff v).1 hy)]; simp [hy]
    · rw [if_neg (fun h => hy ((yes_iff v).2 h))]
      split <;> simp [hy]

theorem boolify_ok_iff (environ : Environ) (x : Str) :
    (∃ b, boolifyEnv environ x = .ok b) ↔ ∀ v, environ x = some v → Yes v ∨ No v := by
  unfold boolifyEnv
  cases environ x with
  | none => simp
  | some v =>
    dsimp only
    simp only [Option.some.injEq, forall_eq', yes_iff, no_iff]
    split
    · rename_i h; simp only [h, true_or, iff_true]; exact ⟨_, rfl⟩
    · rename_i h
      split
      · rename_i h'; simp only [h', or_true, iff_true]; exact ⟨_, rfl⟩
      · rename_i h'
        constructor
        · rintro ⟨b, hb⟩; cases hb
        · rintro (h1 | h1)
          · exact absurd h1 h
          · exact absurd h1 h'

theorem boolify_error (environ : Environ) (x : Str) (e : Exc) (h : boolifyEnv environ x = .error e) : e = .valueError := by
  unfold boolifyEnv at h
  repeat' (split at h)
  · simp at h
  · dsimp only at h
    split at h
    · simp at h
    · split at h
      · simp at h
      · exact (Except.error.inj h).symm

/-! ## Occurrences -/

/-- an option occurs -/
def GivenS (names : List Str) (occs : List Occ) : Prop := ∃ o ∈ occs, o.name ∈ names

theorem occurs_iff (names : List String) (occs : List Occ) : Occurs names occs ↔ GivenS (names.map String.toList) occs := by
  unfold Occurs GivenS
  refine exists_congr fun o => and_congr_right fun _ => ?_
  rw [List.mem_map]
  exact exists_congr fun n => and_congr_right fun _ => eq_comm

theorem not_givenS_cons {names : List Str} {o : Occ} {rest : List Occ} :
    ¬ GivenS names (o :: rest) ↔ o.name ∉ names ∧ ¬ GivenS names rest := by
  unfold GivenS; simp

theorem lastGiven_given {names : List String} {occs : List Occ} {v : Str} (h : LastGiven names occs v) : Occurs names occs := by
  induction h with
  | here hn _ _ => exact ⟨_, List.mem_cons_self, hn⟩
  | later _ ih => obtain ⟨o, ho, hn⟩ := ih; exact ⟨o, List.mem_cons_of_mem _ ho, hn⟩

theorem lastGiven_unique {names : List String} {occs : List Occ} {v v' : Str} (h : LastGiven names occs v)
    (h' : LastGiven names occs v') : v = v' := by
  induction h with
  | here hn hv hr =>
    cases h' with
    | here _ hv' _ => rw [hv] at hv'; exact Option.some.inj hv'
    | later h' => exact absurd (lastGiven_given h') hr
  | later h ih =>
    cases h' with
    | here _ _ hr => exact absurd (lastGiven_given h) hr
    | later h' => exact ih h'

theorem textValue_unique {environ : Environ} {occs : List Occ} {names : List String} {var : Option String} {f : Option Str}
    {a b : Option Str} (h : TextValue environ occs names var f a) (h' : TextValue environ occs names var f b) : a = b := by
  cases h with
  | given h =>
    cases h' with
    | given h' => rw [lastGiven_unique h h']
    | environment hg _ _ => exact absurd (lastGiven_given h) hg
    | default hg _ => exact absurd (lastGiven_given h) hg
  | environment hg hx hv =>
    cases h' with
    | given h' => exact absurd (lastGiven_given h') hg
    | environment _ hx' hv' =>
      rw [hx] at hx'; obtain rfl := Option.some.inj hx'; rw [hv] at hv'; exact hv'
    | default _ hn => rw [hn _ hx] at hv; cases hv
  | default hg hn =>
    cases h' with
    | given h' => exact absurd (lastGiven_given h') hg
    | environment _ hx' hv' => rw [hn _ hx'] at hv'; cases hv'
    | default _ _ => rfl

/-! ## One parser -/

/-- names and destinations belong to one option only -/
structure Table (opts : List Opt) : Prop where
  names : ∀ o ∈ opts, ∀ o' ∈ opts, ∀ n ∈ o.names, n ∈ o'.names → o = o'
  dests : ∀ o ∈ opts, ∀ o' ∈ opts, o.dest = o'.dest → o = o'

/-- the occurrence has a value exactly if the option takes one, and does not ask for help -/
def Shape (o : Opt) (occ : Occ) : Prop :=
  (o.action = .store ∧ occ.value ≠ none) ∨ ((o.action = .storeTrue ∨ o.action = .count) ∧ occ.value = none)

/-- some option with this destination occurs -/
def GivenD (opts : List Opt) (d : Str) (occs : List Occ) : Prop := ∃ o ∈ opts, o.dest = d ∧ GivenS o.names occs

theorem find_iff {opts : List Opt} (ht : Table opts) (n : Str) (o : Opt) :
    (opts.find? fun o => decide (n ∈ o.names)) = some o ↔ o ∈ opts ∧ n ∈ o.names := by
  constructor
  · intro h
    exact ⟨List.mem_of_find?_eq_some h, by simpa using List.find?_some h⟩
  · rintro ⟨ho, hn⟩
    cases h : opts.find? fun o => decide (n ∈ o.names) with
    | none =>
      rw [List.find?_eq_none] at h
      exact absurd hn (by simpa using h o ho)
    | some o' =>
      have h1 := List.mem_of_find?_eq_some h
      have h2 : n ∈ o'.names := by simpa using List.find?_some h
      rw [ht.names o ho o' h1 n hn h2]

theorem find_none_iff {opts : List Opt} (n : Str) :
    (opts.find? fun o => decide (n ∈ o.names)) = none ↔ ∀ o ∈ opts, n ∉ o.names := by
  rw [List.find?_eq_none]; simp

/-- one more -/
def bump : Option Val → Nat
  | some (.count n) => n + 1
  | _ => 1

theorem apply_ok {o : Opt} {value : Option Str} {old : Option Val} {v : Val} (h : o.apply value old = .ok v) :
    (o.action = .store ∧ ∃ s, value = some s ∧ v = .text s) ∨ (o.action = .storeTrue ∧ value = none ∧ v = .flag true) ∨
    (o.action = .count ∧ value = none ∧ v = .count (bump old)) := by
  unfold Opt.apply at h
  cases ha : o.action <;> cases hv : value <;> rw [ha, hv] at h <;> dsimp only at h
  · cases h
  · exact .inl ⟨rfl, _, rfl, (Except.ok.inj h).symm⟩
  · exact .inr (.inl ⟨rfl, rfl, (Except.ok.inj h).symm⟩)
  · cases h
  · refine .inr (.inr ⟨rfl, rfl, ?_⟩)
    cases old with
    | none => exact (Except.ok.inj h).symm
    | some w => cases w <;> exact (Except.ok.inj h).symm
  · cases h
  · cases h
  · cases h

theorem apply_iff (o : Opt) (occ : Occ) (old : Option Val) : (∃ v, o.apply occ.value old = .ok v) ↔ Shape o occ := by
  unfold Opt.apply Shape
  cases o.action <;> cases occ.value <;> simp
  cases old with
  | none => exact ⟨_, rfl⟩
  | some v => cases v <;> exact ⟨_, rfl⟩

theorem apply_error {o : Opt} {value : Option Str} {old : Option Val} {e : Exc} (h : o.apply value old = .error e) :
    e = .systemExit 2 ∨ (e = .systemExit 0 ∧ o.action = .info) := by
  unfold Opt.apply at h
  cases ha : o.action <;> cases hv : value <;> rw [ha, hv] at h <;> dsimp only at h
  · exact .inl (Except.error.inj h).symm
  · cases h
  · cases h
  · exact .inl (Except.error.inj h).symm
  · cases old with
    | none => cases h
    | some w => cases w <;> cases h
  · exact .inl (Except.error.inj h).symm
  · exact .inr ⟨(Except.error.inj h).symm, rfl⟩
  · exact .inl (Except.error.inj h).symm

/-- two different options of the exclusive group -/
def Conflict (ex : List Str) (seen : List Str) (d : Str) : Prop := d ∈ ex ∧ ∃ d' ∈ seen, d' ∈ ex ∧ d' ≠ d

theorem takeOcc_ok {opts : List Opt} (ht : Table opts) {ex : List Str} {st st' : LevelState} {occ : Occ}
    (h : takeOcc opts ex st occ = .ok st') :
    ((∀ o ∈ opts, occ.name ∉ o.names) ∧ st' = { st with extras := true }) ∨
    ∃ o ∈ opts, occ.name ∈ o.names ∧ ∃ v, o.apply occ.value (st.ns o.dest) = .ok v ∧ ¬ Conflict ex st.seen o.dest ∧
      st' = { st with ns := Function.update st.ns o.dest (some v), seen := o.dest :: st.seen } := by
  unfold takeOcc at h
  split at h
  · rename_i hf
    exact .inl ⟨(find_none_iff _).1 hf, (Except.ok.inj h).symm⟩
  · rename_i o hf
    obtain ⟨ho, hn⟩ := (find_iff ht _ _).1 hf
    split at h
    · cases h
    · rename_i v hv
      split at h
      · cases h
      · rename_i hc
        refine .inr ⟨o, ho, hn, v, hv, ?_, (Except.ok.inj h).symm⟩
        rintro ⟨h1, d, h2, h3⟩
        apply hc
        rw [Bool.and_eq_true]
        exact ⟨decide_eq_true h1, List.any_eq_true.2 ⟨d, h2, decide_eq_true h3⟩⟩

theorem takeOcc_of {opts : List Opt} (ht : Table opts) {ex : List Str} {st : LevelState} {occ : Occ} {o : Opt} (ho : o ∈ opts)
    (hn : occ.name ∈ o.names) (hs : Shape o occ) (hc : ¬ Conflict ex st.seen o.dest) :
    ∃ v, takeOcc opts ex st occ =
      .ok { st with ns := Function.update st.ns o.dest (some v), seen := o.dest :: st.seen } := by
  obtain ⟨v, hv⟩ := (apply_iff o occ (st.ns o.dest)).2 hs
  refine ⟨v, ?_⟩
  unfold takeOcc
  rw [(find_iff ht _ _).2 ⟨ho, hn⟩]
  dsimp only
  rw [hv]
  dsimp only
  rw [if_neg]
  intro h
  rw [Bool.and_eq_true] at h
  obtain ⟨h1, h2⟩ := h
  obtain ⟨d, hd, hd'⟩ := List.any_eq_true.1 h2
  exact hc ⟨of_decide_eq_true h1, d, hd, of_decide_eq_true hd'⟩

theorem takeOcc_error {opts : List Opt} {ex : List Str} {st : LevelState} {occ : Occ} {e : Exc}
    (h : takeOcc opts ex st occ = .error e) :
    e = .systemExit 2 ∨ (e = .systemExit 0 ∧ ∃ o ∈ opts, occ.name ∈ o.names ∧ o.action = .info) := by
  unfold takeOcc at h
  split at h
  · cases h
  · rename_i o hf
    split at h
    · rename_i e' ha
      obtain rfl := Except.error.inj h
      rcases apply_error ha with h' | ⟨h', hi⟩
      · exact .inl h'
      · exact .inr ⟨h', o, List.mem_of_find?_eq_some hf, by simpa using List.find?_some hf, hi⟩
    · split at h
      · exact .inl (Except.error.inj h).symm
      · cases h

theorem takeAll_cons_ok {opts : List Opt} {ex : List Str} {st st' : LevelState} {occ : Occ} {rest : List Occ}
    (h : takeAll opts ex st (occ :: rest) = .ok st') :
    ∃ st₁, takeOcc opts ex st occ = .ok st₁ ∧ takeAll opts ex st₁ rest = .ok st' := by
  rw [takeAll] at h
  split at h
  · cases h
  · rename_i st₁ h1; exact ⟨st₁, h1, h⟩

/-- the step leaves the attribute of an option that does not occur alone -/
theorem takeOcc_other {opts : List Opt} (ht : Table opts) {ex : List Str} {st st' : LevelState} {occ : Occ} {o : Opt}
    (ho : o ∈ opts) (hn : occ.name ∉ o.names) (h : takeOcc opts ex st occ = .ok st') : st'.ns o.dest = st.ns o.dest := by
  rcases takeOcc_ok ht h with ⟨_, rfl⟩ | ⟨o', ho', hn', v, _, _, rfl⟩
  · rfl
  · have hne : o.dest ≠ o'.dest := fun e => hn (by rw [ht.dests o ho o' ho' e]; exact hn')
    exact Function.update_of_ne hne _ _

theorem takeOcc_self {opts : List Opt} (ht : Table opts) {ex : List Str} {st st' : LevelState} {occ : Occ} {o : Opt}
    (ho : o ∈ opts) (hn : occ.name ∈ o.names) (h : takeOcc opts ex st occ = .ok st') :
    ∃ v, o.apply occ.value (st.ns o.dest) = .ok v ∧ st'.ns o.dest = some v := by
  rcases takeOcc_ok ht h with ⟨h', rfl⟩ | ⟨o', ho', hn', v, hv, _, rfl⟩
  · exact absurd hn (h' o ho)
  · obtain rfl := ht.names o ho o' ho' _ hn hn'
    exact ⟨v, hv, Function.update_self _ _ _⟩

theorem takeAll_store {opts : List Opt} (ht : Table opts) {ex : List Str} {o : Opt} (ho : o ∈ opts) (ha : o.action = .store)
    {names : List String} (hnames : o.names = names.map String.toList) :
    ∀ (occs : List Occ) (st st' : LevelState), takeAll opts ex st occs = .ok st' →
      (∃ v, LastGiven names occs v ∧ st'.ns o.dest = some (.text v)) ∨
      (¬ Occurs names occs ∧ st'.ns o.dest = st.ns o.dest) := by
  intro occs
  induction occs with
  | nil =>
    intro st st' h
    rw [takeAll] at h
    obtain rfl := Except.ok.inj h
    exact .inr ⟨by (rintro ⟨_, h, _⟩; cases h), rfl⟩
  | cons occ rest ih =>
    intro st st' h
    obtain ⟨st₁, h1, h2⟩ := takeAll_cons_ok h
    rcases ih st₁ st' h2 with ⟨v, hv, he⟩ | ⟨hg, he⟩
    · exact .inl ⟨v, .later hv, he⟩
    · by_cases hn : occ.name ∈ o.names
      · obtain ⟨v, hv, hv'⟩ := takeOcc_self ht ho hn h1
        rcases apply_ok hv with ⟨_, s, hs, rfl⟩ | ⟨ha', _⟩ | ⟨ha', _⟩
        · refine .inl ⟨s, .here ?_ hs hg, by rw [he, hv']⟩
          rw [hnames, List.mem_map] at hn
          obtain ⟨n, h3, h4⟩ := hn
          exact ⟨n, h3, h4.symm⟩
        · rw [ha] at ha'; cases ha'
        · rw [ha] at ha'; cases ha'
      · refine .inr ⟨?_, by rw [he, takeOcc_other ht ho hn h1]⟩
        rw [occurs_iff, ← hnames, not_givenS_cons]
        rw [occurs_iff, ← hnames] at hg
        exact ⟨hn, hg⟩

theorem takeAll_flag {opts : List Opt} (ht : Table opts) {ex : List Str} {o : Opt} (ho : o ∈ opts) (ha : o.action = .storeTrue) :
    ∀ (occs : List Occ) (st st' : LevelState), takeAll opts ex st occs = .ok st' →
      (GivenS o.names occs ∧ st'.ns o.dest = some (.flag true)) ∨
      (¬ GivenS o.names occs ∧ st'.ns o.dest = st.ns o.dest) := by
  intro occs
  induction occs with
  | nil =>
    intro st st' h
    rw [takeAll] at h
    obtain rfl := Except.ok.inj h
    exact .inr ⟨by (rintro ⟨_, h, _⟩; cases h), rfl⟩
  | cons occ rest ih =>
    intro st st' h
    obtain ⟨st₁, h1, h2⟩ := takeAll_cons_ok h
    rcases ih st₁ st' h2 with ⟨⟨o', h3, h4⟩, he⟩ | ⟨hg, he⟩
    · exact .inl ⟨⟨o', List.mem_cons_of_mem _ h3, h4⟩, he⟩
    · by_cases hn : occ.name ∈ o.names
      · obtain ⟨v, hv, hv'⟩ := takeOcc_self ht ho hn h1
        rcases apply_ok hv with ⟨ha', _⟩ | ⟨_, _, rfl⟩ | ⟨ha', _⟩
        · rw [ha] at ha'; cases ha'
        · exact .inl ⟨⟨occ, List.mem_cons_self, hn⟩, by rw [he, hv']⟩
        · rw [ha] at ha'; cases ha'
      · exact .inr ⟨not_givenS_cons.2 ⟨hn, hg⟩, by rw [he, takeOcc_other ht ho hn h1]⟩

theorem takeAll_count {opts : List Opt} (ht : Table opts) {ex : List Str} {o : Opt} (ho : o ∈ opts) (ha : o.action = .count) :
    ∀ (occs : List Occ) (st st' : LevelState) (n : Nat), st.ns o.dest = some (.count n) →
      takeAll opts ex st occs = .ok st' →
      st'.ns o.dest = some (.count (n + (occs.filter fun x => decide (x.name ∈ o.names)).length)) := by
  intro occs
  induction occs with
  | nil =>
    intro st st' n hn h
    rw [takeAll] at h
    obtain rfl := Except.ok.inj h
    simpa using hn
  | cons occ rest ih =>
    intro st st' n hn h
    obtain ⟨st₁, h1, h2⟩ := takeAll_cons_ok h
    by_cases hm : occ.name ∈ o.names
    · obtain ⟨v, hv, hv'⟩ := takeOcc_self ht ho hm h1
      rcases apply_ok hv with ⟨ha', _⟩ | ⟨ha', _⟩ | ⟨_, _, rfl⟩
      · rw [ha] at ha'; cases ha'
      · rw [ha] at ha'; cases ha'
      · rw [hn] at hv'
        rw [ih st₁ st' (n + 1) hv' h2, List.filter_cons_of_pos (by simpa using hm)]
        simp only [List.length_cons]
        congr 2
        omega
    · rw [ih st₁ st' n (by rw [takeOcc_other ht ho hm h1, hn]) h2, List.filter_cons_of_neg (by simpa using hm)]

/-- an attribute that no option sets -/
theorem takeAll_foreign {opts : List Opt} (ht : Table opts) {ex : List Str} {d : Str} (hd : ∀ o ∈ opts, o.dest ≠ d) :
    ∀ (occs : List Occ) (st st' : LevelState), takeAll opts ex st occs = .ok st' → st'.ns d = st.ns d := by
  intro occs
  induction occs with
  | nil => intro st st' h; rw [takeAll] at h; obtain rfl := Except.ok.inj h; rfl
  | cons occ rest ih =>
    intro st st' h
    obtain ⟨st₁, h1, h2⟩ := takeAll_cons_ok h
    rw [ih st₁ st' h2]
    rcases takeOcc_ok ht h1 with ⟨_, rfl⟩ | ⟨o', ho', _, v, _, _, rfl⟩
    · rfl
    · exact Function.update_of_ne (hd o' ho').symm _ _

theorem takeAll_seen {opts : List Opt} (ht : Table opts) {ex : List Str} (d : Str) :
    ∀ (occs : List Occ) (st st' : LevelState), takeAll opts ex st occs = .ok st' →
      (d ∈ st'.seen ↔ d ∈ st.seen ∨ GivenD opts d occs) := by
  intro occs
  induction occs with
  | nil =>
    intro st st' h; rw [takeAll] at h; obtain rfl := Except.ok.inj h
    constructor
    · exact .inl
    · rintro (h | ⟨_, _, _, _, h, _⟩)
      · exact h
      · cases h
  | cons occ rest ih =>
    intro st st' h
    obtain ⟨st₁, h1, h2⟩ := takeAll_cons_ok h
    rw [ih st₁ st' h2]
    have split : GivenD opts d (occ :: rest) ↔ (∃ o ∈ opts, o.dest = d ∧ occ.name ∈ o.names) ∨ GivenD opts d rest := by
      unfold GivenD GivenS
      constructor
      · rintro ⟨o, ho, hd, x, hx, hn⟩
        rcases List.mem_cons.1 hx with rfl | hx
        · exact .inl ⟨o, ho, hd, hn⟩
        · exact .inr ⟨o, ho, hd, x, hx, hn⟩
      · rintro (⟨o, ho, hd, hn⟩ | ⟨o, ho, hd, x, hx, hn⟩)
        · exact ⟨o, ho, hd, occ, List.mem_cons_self, hn⟩
        · exact ⟨o, ho, hd, x, List.mem_cons_of_mem _ hx, hn⟩
    rw [split]
    rcases takeOcc_ok ht h1 with ⟨hu, rfl⟩ | ⟨o', ho', hn', v, _, _, rfl⟩
    · constructor
      · rintro (h | h)
        · exact .inl h
        · exact .inr (.inr h)
      · rintro (h | ⟨o, ho, _, hn⟩ | h)
        · exact .inl h
        · exact absurd hn (hu o ho)
        · exact .inr h
    · constructor
      · rintro (h | h)
        · rcases List.mem_cons.1 h with h | h
          · exact .inr (.inl ⟨o', ho', h.symm, hn'⟩)
          · exact .inl h
        · exact .inr (.inr h)
      · rintro (h | ⟨o, ho, hd, hn⟩ | h)
        · exact .inl (List.mem_cons_of_mem _ h)
        · obtain rfl := ht.names o ho o' ho' _ hn hn'
          exact .inl (by rw [← hd]; exact List.mem_cons_self)
        · exact .inr h

/-- the options of the exclusive group that occur are one and the same -/
def Exclusive (opts : List Opt) (ex seen : List Str) (occs : List Occ) : Prop :=
  ∀ d ∈ ex, ∀ d' ∈ ex, (d ∈ seen ∨ GivenD opts d occs) → GivenD opts d' occs → d = d'

theorem givenD_tail {opts : List Opt} {d : Str} {occ : Occ} {rest : List Occ} (h : GivenD opts d rest) :
    GivenD opts d (occ :: rest) := by
  obtain ⟨o, ho, hd, x, hx, hn⟩ := h
  exact ⟨o, ho, hd, x, List.mem_cons_of_mem _ hx, hn⟩

theorem takeAll_iff {opts : List Opt} (ht : Table opts) {ex : List Str} : ∀ (occs : List Occ) (st : LevelState),
    (∃ st', takeAll opts ex st occs = .ok st' ∧ st'.extras = false) ↔
      st.extras = false ∧ (∀ occ ∈ occs, ∃ o ∈ opts, occ.name ∈ o.names ∧ Shape o occ) ∧ Exclusive opts ex st.seen occs := by
  intro occs
  induction occs with
  | nil =>
    intro st
    rw [takeAll]
    constructor
    · rintro ⟨st', h, he⟩
      obtain rfl := Except.ok.inj h
      refine ⟨he, (fun _ h => nomatch h), ?_⟩
      rintro d _ d' _ _ ⟨_, _, _, _, h, _⟩
      cases h
    · rintro ⟨he, _⟩; exact ⟨st, rfl, he⟩
  | cons occ rest ih =>
    intro st
    constructor
    · rintro ⟨st', h, he⟩
      obtain ⟨st₁, h1, h2⟩ := takeAll_cons_ok h
      obtain ⟨h3, h4, h5⟩ := (ih st₁).1 ⟨st', h2, he⟩
      rcases takeOcc_ok ht h1 with ⟨_, rfl⟩ | ⟨o, ho, hn, v, hv, hc, rfl⟩
      · cases h3
      · refine ⟨h3, ?_, ?_⟩
        · intro x hx
          rcases List.mem_cons.1 hx with rfl | hx
          · exact ⟨o, ho, hn, (apply_iff _ _ _).1 ⟨v, hv⟩⟩
          · exact h4 x hx
        · intro d hd d' hd' hs hg
          have left : d ∈ o.dest :: st.seen ∨ GivenD opts d rest := by
            rcases hs with hs | ⟨o1, ho1, hd1, x, hx, hn1⟩
            · exact .inl (List.mem_cons_of_mem _ hs)
            · rcases List.mem_cons.1 hx with rfl | hx
              · obtain rfl := ht.names o ho o1 ho1 _ hn hn1
                exact .inl (by rw [← hd1]; exact List.mem_cons_self)
              · exact .inr ⟨o1, ho1, hd1, x, hx, hn1⟩
          obtain ⟨o2, ho2, hd2, x, hx, hn2⟩ := hg
          rcases List.mem_cons.1 hx with rfl | hx
          · obtain rfl := ht.names o ho o2 ho2 _ hn hn2
            rcases left with left | left
            · rcases List.mem_cons.1 left with left | left
              · rw [left, hd2]
              · by_contra hne
                exact hc ⟨by rw [hd2]; exact hd', d, left, hd, by rw [hd2]; exact hne⟩
            · exact (h5 d' hd' d hd (.inl (by rw [← hd2]; exact List.mem_cons_self)) left).symm
          · exact h5 d hd d' hd' left ⟨o2, ho2, hd2, x, hx, hn2⟩
    · rintro ⟨he, hs, hx⟩
      obtain ⟨o, ho, hn, hsh⟩ := hs occ List.mem_cons_self
      have given : GivenD opts o.dest (occ :: rest) := ⟨o, ho, rfl, occ, List.mem_cons_self, hn⟩
      have hc : ¬ Conflict ex st.seen o.dest := by
        rintro ⟨h1, d, h2, h3, h4⟩
        exact h4 (hx d h3 o.dest h1 (.inl h2) given)
      obtain ⟨v, hv⟩ := takeOcc_of ht (st := st) ho hn hsh hc
      rw [takeAll, hv]
      refine (ih _).2 ⟨he, fun x hx => hs x (List.mem_cons_of_mem _ hx), ?_⟩
      intro d hd d' hd' h1 h2
      refine hx d hd d' hd' ?_ (givenD_tail h2)
      rcases h1 with h1 | h1
      · rcases List.mem_cons.1 h1 with rfl | h1
        · exact .inr given
        · exact .inl h1
      · exact .inr (givenD_tail h1)

theorem takeAll_error {opts : List Opt} {ex : List Str} : ∀ (occs : List Occ) (st : LevelState) (e : Exc),
    takeAll opts ex st occs = .error e →
      e = .systemExit 2 ∨ (e = .systemExit 0 ∧ ∃ o ∈ opts, o.action = .info ∧ GivenS o.names occs) := by
  intro occs
  induction occs with
  | nil => intro st e h; rw [takeAll] at h; cases h
  | cons occ rest ih =>
    intro st e h
    rw [takeAll] at h
    split at h
    · rename_i e' h1
      obtain rfl := Except.error.inj h
      rcases takeOcc_error h1 with h' | ⟨h', o, ho, hn, hi⟩
      · exact .inl h'
      · exact .inr ⟨h', o, ho, hi, occ, List.mem_cons_self, hn⟩
    · rename_i st₁ h1
      rcases ih st₁ e h with h' | ⟨h', o, ho, hi, x, hx, hn⟩
      · exact .inl h'
      · exact .inr ⟨h', o, ho, hi, x, List.mem_cons_of_mem _ hx, hn⟩

/-! ## Defaults -/

theorem initial_cons_ok {environ : Environ} {o : Opt} {rest : List Opt} {ns : Namespace}
    (h : initial environ (o :: rest) = .ok ns) :
    ∃ v ns', evalDefault environ o.default = .ok v ∧ initial environ rest = .ok ns' ∧
      ns = match v with | none => ns' | some v => Function.update ns' o.dest (some v) := by
  rw [initial] at h
  split at h
  · cases h
  · rename_i v hv
    split at h
    · cases h
    · rename_i ns' hn
      refine ⟨v, ns', hv, hn, ?_⟩
      split at h <;> exact (Except.ok.inj h).symm

theorem initial_foreign {environ : Environ} {d : Str} : ∀ {opts : List Opt} {ns : Namespace}, initial environ opts = .ok ns →
    (∀ o ∈ opts, o.dest ≠ d) → ns d = none
  | [], ns, h, _ => by rw [initial] at h; rw [← Except.ok.inj h]
  | o :: rest, ns, h, hd => by
    obtain ⟨v, ns', _, h2, rfl⟩ := initial_cons_ok h
    have := initial_foreign h2 fun o' ho' => hd o' (List.mem_cons_of_mem _ ho')
    cases v with
    | none => exact this
    | some v => exact (Function.update_of_ne (hd o List.mem_cons_self).symm _ _).trans this

theorem initial_value {environ : Environ} : ∀ {opts : List Opt} {ns : Namespace}, initial environ opts = .ok ns →
    (opts.map Opt.dest).Nodup → ∀ o ∈ opts, evalDefault environ o.default = .ok (ns o.dest)
  | [], _, _, _, _, ho => nomatch ho
  | o :: rest, ns, h, hd, o', ho' => by
    obtain ⟨v, ns', h1, h2, rfl⟩ := initial_cons_ok h
    rw [List.map_cons, List.nodup_cons] at hd
    rcases List.mem_cons.1 ho' with rfl | ho'
    · cases v with
      | none =>
        rw [h1]
        dsimp only
        rw [initial_foreign h2]
        intro o hm e
        exact hd.1 (by rw [← e]; exact List.mem_map_of_mem hm)
      | some v => rw [h1]; dsimp only; rw [Function.update_self]
    · have ih := initial_value h2 hd.2 o' ho'
      cases v with
      | none => exact ih
      | some v =>
        dsimp only
        rw [Function.update_of_ne]
        · exact ih
        · intro e
          exact hd.1 (by rw [← e]; exact List.mem_map_of_mem ho')

theorem evalDefault_iff (environ : Environ) (d : Default) :
    (∃ v, evalDefault environ d = .ok v) ↔ ∀ x, d = .envFlag x → ∃ b, boolifyEnv environ x = .ok b := by
  cases d <;> simp [evalDefault]
  · rename_i name fallback
    cases environ name with
    | some s => exact ⟨_, rfl⟩
    | none => cases fallback <;> exact ⟨_, rfl⟩
  · rename_i name
    cases boolifyEnv environ name <;> simp

theorem evalDefault_error (environ : Environ) (d : Default) (e : Exc) (h : evalDefault environ d = .error e) :
    e = .valueError := by
  unfold evalDefault at h
  repeat' (split at h)
  all_goals first
    | (cases h; done)
    | (rename_i e' hb; obtain rfl := Except.error.inj h; exact boolify_error _ _ _ hb)

theorem initial_iff (environ : Environ) : ∀ (opts : List Opt),
    (∃ ns, initial environ opts = .ok ns) ↔ ∀ o ∈ opts, ∀ x, o.default = .envFlag x → ∃ b, boolifyEnv environ x = .ok b
  | [] => by simp [initial]
  | o :: rest => by
    have ih := initial_iff environ rest
    constructor
    · rintro ⟨ns, h⟩
      obtain ⟨v, ns', h1, h2, _⟩ := initial_cons_ok h
      intro o' ho'
      rcases List.mem_cons.1 ho' with rfl | ho'
      · exact (evalDefault_iff _ _).1 ⟨v, h1⟩
      · exact ih.1 ⟨ns', h2⟩ o' ho'
    · intro h
      obtain ⟨v, hv⟩ := (evalDefault_iff environ o.default).2 (h o List.mem_cons_self)
      obtain ⟨ns, hns⟩ := ih.2 fun o' ho' => h o' (List.mem_cons_of_mem _ ho')
      rw [initial, hv]
      dsimp only
      rw [hns]
      cases v <;> exact ⟨_, rfl⟩

theorem initial_error (environ : Environ) : ∀ (opts : List Opt) (e : Exc), initial environ opts = .error e → e = .valueError
  | [], _, h => by rw [initial] at h; cases h
  | o :: rest, e, h => by
    rw [initial] at h
    split at h
    · rename_i e' he; obtain rfl := Except.error.inj h; exact evalDefault_error _ _ _ he
    · split at h
      · rename_i e' he; obtain rfl := Except.error.inj h; exact initial_error environ rest _ he
      · split at h <;> cases h

/-! ## A whole parser -/

theorem parseLevel_ok {environ : Environ} {opts : List Opt} {ex : List Str} {occs : List Occ} {ns : Namespace} {x : Bool}
    (h : parseLevel environ opts ex occs = .ok (ns, x)) :
    ∃ ns₀ st, initial environ opts = .ok ns₀ ∧ takeAll opts ex ⟨ns₀, [], false⟩ occs = .ok st ∧ st.ns = ns ∧ st.extras = x ∧
      ∀ o ∈ opts, o.required = true → o.dest ∈ st.seen := by
  unfold parseLevel at h
  split at h
  · cases h
  · rename_i ns₀ h0
    split at h
    · cases h
    · rename_i st h1
      split at h
      · cases h
      · rename_i hr
        obtain ⟨rfl, rfl⟩ := Prod.mk.inj (Except.ok.inj h)
        refine ⟨ns₀, st, h0, h1, rfl, rfl, ?_⟩
        intro o ho hreq
        by_contra hns
        apply hr
        exact List.any_eq_true.2 ⟨o, ho, by rw [hreq, Bool.true_and]; exact decide_eq_true hns⟩

theorem parseLevel_iff {environ : Environ} {opts : List Opt} (ht : Table opts) (ex : List Str) (occs : List Occ) :
    (∃ ns, parseLevel environ opts ex occs = .ok (ns, false)) ↔
      (∃ ns, initial environ opts = .ok ns) ∧ (∀ occ ∈ occs, ∃ o ∈ opts, occ.name ∈ o.names ∧ Shape o occ) ∧
      (∀ d ∈ ex, ∀ d' ∈ ex, GivenD opts d occs → GivenD opts d' occs → d = d') ∧
      ∀ o ∈ opts, o.required = true → GivenS o.names occs := by
  have req : ∀ (ns₀ : Namespace) (st : LevelState), takeAll opts ex ⟨ns₀, [], false⟩ occs = .ok st → ∀ o ∈ opts,
      (o.dest ∈ st.seen ↔ GivenS o.names occs) := by
    intro ns₀ st h o ho
    rw [takeAll_seen ht o.dest occs _ st h]
    constructor
    · rintro (h | ⟨o', ho', hd, hg⟩)
      · cases h
      · obtain rfl := ht.dests o' ho' o ho hd; exact hg
    · intro hg; exact .inr ⟨o, ho, rfl, hg⟩
  constructor
  · rintro ⟨ns, h⟩
    obtain ⟨ns₀, st, h0, h1, h2, h3, h4⟩ := parseLevel_ok h
    obtain ⟨_, h6, h7⟩ := (takeAll_iff ht occs ⟨ns₀, [], false⟩).1 ⟨st, h1, h3⟩
    refine ⟨⟨ns₀, h0⟩, h6, fun d hd d' hd' hg hg' => h7 d hd d' hd' (.inr hg) hg', ?_⟩
    intro o ho hr
    exact (req ns₀ st h1 o ho).1 (h4 o ho hr)
  · rintro ⟨⟨ns₀, h0⟩, h6, h7, h8⟩
    obtain ⟨st, h1, h3⟩ := (takeAll_iff ht (ex := ex) occs ⟨ns₀, [], false⟩).2
      ⟨rfl, h6, fun d hd d' hd' hg hg' => h7 d hd d' hd' (hg.resolve_left (fun h => nomatch h)) hg'⟩
    refine ⟨st.ns, ?_⟩
    unfold parseLevel
    rw [h0]
    dsimp only
    rw [h1]
    dsimp only
    rw [if_neg, h3]
    intro h
    obtain ⟨o, ho, hr⟩ := List.any_eq_true.1 h
    rw [Bool.and_eq_true] at hr
    exact of_decide_eq_true hr.2 ((req ns₀ st h1 o ho).2 (h8 o ho hr.1))

theorem parseLevel_error {environ : Environ} {opts : List Opt} {ex : List Str} {occs : List Occ} {e : Exc}
    (h : parseLevel environ opts ex occs = .error e) (hi : ∃ ns, initial environ opts = .ok ns) :
    e = .systemExit 2 ∨ (e = .systemExit 0 ∧ ∃ o ∈ opts, o.action = .info ∧ GivenS o.names occs) := by
  obtain ⟨ns, hns⟩ := hi
  unfold parseLevel at h
  rw [hns] at h
  dsimp only at h
  split at h
  · rename_i e' he; obtain rfl := Except.error.inj h; exact takeAll_error _ _ _ he
  · split at h
    · exact .inl (Except.error.inj h).symm
    · cases h

section Values

variable {environ : Environ} {opts : List Opt} (ht : Table opts) (hd : (opts.map Opt.dest).Nodup) {ex : List Str}
  {occs : List Occ} {ns : Namespace} {x : Bool} (h : parseLevel environ opts ex occs = .ok (ns, x))

include ht hd h

/-- the value of an option with a value -/
theorem level_text {names : List String} {dest : String} {default : Default} {r : Bool}
    (ho : opt names dest default r ∈ opts) :
    (∃ v, LastGiven names occs v ∧ ns dest.toList = some (.text v)) ∨
    (¬ Occurs names occs ∧ r = false ∧ evalDefault environ default = .ok (ns dest.toList)) := by
  obtain ⟨ns₀, st, h0, h1, rfl, _, h4⟩ := parseLevel_ok h
  rcases takeAll_store ht ho rfl (names := names) rfl occs _ st h1 with hv | ⟨hg, he⟩
  · exact .inl hv
  · refine .inr ⟨hg, ?_, ?_⟩
    · cases hr : r with
      | false => rfl
      | true =>
        subst hr
        have := h4 _ ho rfl
        rw [takeAll_seen ht _ occs _ st h1] at this
        rcases this with h | ⟨o', ho', hd', hg'⟩
        · cases h
        · obtain rfl := ht.dests o' ho' _ ho hd'
          exact absurd ((occurs_iff _ _).2 hg') hg
    · have := initial_value h0 hd _ ho
      change st.ns dest.toList = _ at he
      rw [he]
      exact this

theorem level_env {names : List String} {dest : String} {var : String} (ho : opt names dest (env var) false ∈ opts) :
    ∃ t, TextValue environ occs names (some var) none t ∧
      ns dest.toList = some (match t with | some v => .text v | none => .null) := by
  rcases level_text ht hd h ho with ⟨v, hv, he⟩ | ⟨hg, _, he⟩
  · exact ⟨some v, .given hv, he⟩
  · unfold env evalDefault at he
    dsimp only at he
    cases hx : environ var.toList with
    | some v => rw [hx] at he; exact ⟨some v, .environment hg rfl hx, (Except.ok.inj he).symm⟩
    | none =>
      rw [hx] at he
      exact ⟨none, .default hg (by intro x hx'; rw [← Option.some.inj hx']; exact hx), (Except.ok.inj he).symm⟩

theorem level_plain {names : List String} {dest : String} (ho : opt names dest .null false ∈ opts) :
    ∃ t, TextValue environ occs names none none t ∧
      ns dest.toList = some (match t with | some v => .text v | none => .null) := by
  rcases level_text ht hd h ho with ⟨v, hv, he⟩ | ⟨hg, _, he⟩
  · exact ⟨some v, .given hv, he⟩
  · exact ⟨none, .default hg (by intro x hx; cases hx), (Except.ok.inj he).symm⟩

theorem level_required {names : List String} {dest : String} {default : Default} (ho : opt names dest default true ∈ opts) :
    ∃ v, LastGiven names occs v ∧ ns dest.toList = some (.text v) := by
  rcases level_text ht hd h ho with hv | ⟨_, hr, _⟩
  · exact hv
  · cases hr

theorem level_flag {name dest var : String} (ho : optFlag name dest (envFlag var) ∈ opts) :
    ∃ b, ns dest.toList = some (.flag b) ∧ FlagValue environ occs name (some var) b := by
  obtain ⟨ns₀, st, h0, h1, rfl, _, _⟩ := parseLevel_ok h
  have hgi : Occurs [name] occs ↔ GivenS (optFlag name dest (envFlag var)).names occs := occurs_iff _ _
  rcases takeAll_flag ht ho rfl occs _ st h1 with ⟨hg, he⟩ | ⟨hg, he⟩
  · exact ⟨true, he, by unfold FlagValue; simp [hgi, hg]⟩
  · have hv := initial_value h0 hd _ ho
    change evalDefault environ (envFlag var) = .ok (ns₀ dest.toList) at hv
    change st.ns dest.toList = ns₀ dest.toList at he
    unfold envFlag evalDefault at hv
    dsimp only at hv
    split at hv
    · cases hv
    · rename_i b hb
      refine ⟨b, by rw [he]; exact (Except.ok.inj hv).symm, ?_⟩
      unfold FlagValue
      constructor
      · rintro rfl
        obtain ⟨v, h1, h2⟩ := (boolify_true_iff _ _).1 hb
        exact .inr ⟨var, v, rfl, h1, h2⟩
      · rintro (h' | ⟨x', v, hx, h1, h2⟩)
        · exact absurd (hgi.1 h') hg
        · obtain rfl := Option.some.inj hx
          have := (boolify_true_iff _ _).2 ⟨v, h1, h2⟩
          rw [hb] at this
          exact Except.ok.inj this

theorem level_switch {name dest : String} (ho : optFlag name dest .off ∈ opts) :
    ∃ b, ns dest.toList = some (.flag b) ∧ FlagValue environ occs name none b := by
  obtain ⟨ns₀, st, h0, h1, rfl, _, _⟩ := parseLevel_ok h
  have hgi : Occurs [name] occs ↔ GivenS (optFlag name dest .off).names occs := occurs_iff _ _
  rcases takeAll_flag ht ho rfl occs _ st h1 with ⟨hg, he⟩ | ⟨hg, he⟩
  · exact ⟨true, he, by unfold FlagValue; simp [hgi, hg]⟩
  · have hv := initial_value h0 hd _ ho
    change Except.ok (some (Val.flag false)) = .ok (ns₀ dest.toList) at hv
    change st.ns dest.toList = ns₀ dest.toList at he
    refine ⟨false, by rw [he]; exact (Except.ok.inj hv).symm, ?_⟩
    unfold FlagValue
    simp [hgi, hg]

omit hd in
theorem level_foreign {dest : String} (ho : ∀ o ∈ opts, o.dest ≠ dest.toList) : ns dest.toList = none := by
  obtain ⟨ns₀, st, h0, h1, rfl, _, _⟩ := parseLevel_ok h
  rw [takeAll_foreign ht ho occs _ st h1]
  exact initial_foreign h0 ho

end Values

end Sigstore.Args
