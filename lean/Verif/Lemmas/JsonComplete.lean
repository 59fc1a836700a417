import Verif.Lemmas.JsonGrammar

/-!
# Lemmas on JSON text: all JSON is read
-/

namespace Sigstore.JsonIO

open Sigstore.Spec

/-! ## Blanks -/

theorem isBlank_iff (c : Char) : isBlank c = true ↔ c ∈ [' ', '\n', '\r', '\t'] := by
  unfold isBlank
  rw [decide_eq_true_iff]
  simp

theorem skip_blanks {a s : Str} (h : Blanks a) : skip (a ++ s) = skip s := by
  induction a with
  | nil => rfl
  | cons c a ih =>
    have hc := (isBlank_iff c).2 (h c List.mem_cons_self)
    unfold skip at ih ⊢
    rw [List.cons_append, List.dropWhile_cons, if_pos hc]
    exact ih fun x hx => h x (List.mem_cons_of_mem _ hx)

theorem skip_to {a r : Str} {c : Char} (h : Blanks a) (hc : isBlank c = false) : skip (a ++ c :: r) = c :: r := by
  rw [skip_blanks h, skip_of_not hc]

theorem ends_blanks {a r : Str} {c : Char} (h : Blanks a) (hc : isNumChar c = false) : Ends (a ++ c :: r) := by
  intro x y e
  cases a with
  | nil => cases e; exact hc
  | cons z a =>
    cases e
    have := h x List.mem_cons_self
    have all : ∀ c ∈ [' ', '\n', '\r', '\t'], isNumChar c = false := by decide
    exact all x this

theorem ends_after {a : Str} (h : Blanks a) : Ends a := by
  intro x y e
  have all : ∀ c ∈ [' ', '\n', '\r', '\t'], isNumChar c = false := by decide
  exact all x (h x (by rw [e]; exact List.mem_cons_self))

/-! ## Texts -/

theorem hexVal_of {c : Char} {n : Nat} (h : HexIs c n) : hexVal c = some n := by
  have le : ∀ a b : Char, a ≤ b → a.toNat ≤ b.toNat := fun a b h => h
  unfold hexVal
  dsimp only
  rcases h with ⟨h1, h2, rfl⟩ | ⟨h1, h2, rfl⟩ | ⟨h1, h2, rfl⟩
  · have g1 : 48 ≤ c.toNat := le _ _ h1
    have g2 : c.toNat ≤ 57 := le _ _ h2
    rw [if_pos ⟨g1, g2⟩]
  · have g1 : 97 ≤ c.toNat := le _ _ h1
    have g2 : c.toNat ≤ 102 := le _ _ h2
    rw [if_neg (by omega), if_pos ⟨g1, g2⟩]
  · have g1 : 65 ≤ c.toNat := le _ _ h1
    have g2 : c.toNat ≤ 70 := le _ _ h2
    rw [if_neg (by omega), if_neg (by omega), if_pos ⟨g1, g2⟩]

theorem unicode_of {t : Str} {n : Nat} (h : UnicodeIs t n) : ∃ u, t = '\\' :: 'u' :: u ∧ ∀ r, hex4 (u ++ r) = some (n, r) := by
  obtain ⟨a, b, c, d, w, x, y, z, rfl, h1, h2, h3, h4, rfl⟩ := h
  refine ⟨[a, b, c, d], rfl, fun r => ?_⟩
  show hex4 (a :: b :: c :: d :: r) = _
  unfold hex4
  dsimp only
  rw [hexVal_of h1, hexVal_of h2, hexVal_of h3, hexVal_of h4]
  dsimp only
  rw [show ((w * 16 + x) * 16 + y) * 16 + z = w * 4096 + x * 256 + y * 16 + z by omega]

theorem char_valid (c : Char) : c.toNat < 0xD800 ∨ 0xE000 ≤ c.toNat := by
  have h : c.toNat < 0xD800 ∨ (0xDFFF < c.toNat ∧ c.toNat < 0x110000) := c.valid
  omega

theorem readEscape_of {c : Char} {t : Str} (h : CharText c t) :
    (t = [c] ∧ 0x20 ≤ c.toNat ∧ c ≠ '"' ∧ c ≠ '\\') ∨ ∃ u, t = '\\' :: u ∧ ∀ r, readEscape (u ++ r) = some (c, r) := by
  cases h with
  | plain h1 h2 h3 => exact .inl ⟨rfl, h1, h2, h3⟩
  | short e he =>
    refine .inr ⟨[e], rfl, fun r => ?_⟩
    simp only [List.mem_cons, Prod.mk.injEq, List.not_mem_nil, or_false] at he
    rcases he with ⟨rfl, rfl⟩ | ⟨rfl, rfl⟩ | ⟨rfl, rfl⟩ | ⟨rfl, rfl⟩ | ⟨rfl, rfl⟩ | ⟨rfl, rfl⟩ | ⟨rfl, rfl⟩ | ⟨rfl, rfl⟩ <;> rfl
  | unicode _ hu =>
    obtain ⟨u, rfl, h1⟩ := unicode_of hu
    refine .inr ⟨'u' :: u, rfl, fun r => ?_⟩
    show readUnicode (u ++ r) = _
    unfold readUnicode
    rw [h1]
    dsimp only
    rw [if_pos (char_valid c), Char.ofNat_toNat]
  | pair t u n m ht hu h1 h2 h3 h4 h5 =>
    obtain ⟨t', rfl, k1⟩ := unicode_of ht
    obtain ⟨u', rfl, k2⟩ := unicode_of hu
    refine .inr ⟨'u' :: (t' ++ '\\' :: 'u' :: u'), rfl, fun r => ?_⟩
    show readUnicode ((t' ++ '\\' :: 'u' :: u') ++ r) = _
    rw [List.append_assoc]
    show readUnicode (t' ++ '\\' :: 'u' :: (u' ++ r)) = _
    unfold readUnicode
    rw [k1]
    dsimp only
    rw [if_neg (by omega), if_pos h2]
    show (match hex4 (u' ++ r) with | none => none | some (m, r) => if _ then _ else _) = _
    rw [k2]
    dsimp only
    rw [if_pos ⟨h3, h4⟩, ← h5, Char.ofNat_toNat]

theorem readChars_of {s t : Str} (h : CharsText s t) : ∀ n r, t.length < n → readChars n (t ++ '"' :: r) = some (s, r) := by
  induction h with
  | nil =>
    intro n r hn
    cases n with
    | zero => cases hn
    | succ n => rfl
  | cons c s t u hc _ ih =>
    intro n r hn
    cases n with
    | zero => cases hn
    | succ n =>
      rw [List.length_append] at hn
      rw [List.append_assoc]
      rcases readEscape_of hc with ⟨rfl, h1, h2, h3⟩ | ⟨v, rfl, h1⟩
      · show readChars (n + 1) (c :: (u ++ '"' :: r)) = _
        rw [readChars, if_neg h2, if_neg h3, if_neg (by omega), ih n r (by simp at hn; omega)]
        rfl
      · show readChars (n + 1) ('\\' :: (v ++ (u ++ '"' :: r))) = _
        rw [readChars, if_neg (by decide), if_pos rfl, h1]
        dsimp only
        rw [ih n r (by rw [List.length_cons] at hn; omega)]
        rfl

/-! ## Numbers -/

theorem numText_chars {fl : Floats} {q : ℚ} {s : Str} (h : NumText fl q s) : s ≠ [] ∧ ∀ c ∈ s, isNumChar c = true := by
  rcases h with ⟨z, _, h⟩ | ⟨h1, h2, _⟩
  · have nat : ∀ r, isNatText r = true → r ≠ [] ∧ ∀ c ∈ r, isNumChar c = true := by
      intro r hr
      have hr := of_decide_eq_true hr
      refine ⟨hr.1, fun c hc => ?_⟩
      unfold isNumChar
      rw [List.all_eq_true.1 hr.2.1 c hc]
      rfl
    rcases intText_cases h with ⟨h1, _, _⟩ | ⟨r, rfl, h2, _⟩
    · exact nat s h1
    · exact ⟨by simp, List.forall_mem_cons.2 ⟨by decide, (nat r h2).2⟩⟩
  · exact ⟨h1, fun c hc => (isNumChar_iff c).2 (h2 c hc)⟩

theorem readNum_of {fl : Floats} {q : ℚ} {s : Str} (h : NumText fl q s) : readNum fl s = some q := by
  rcases h with ⟨z, rfl, h⟩ | ⟨h1, _, h3, h4⟩
  · rcases intText_cases h with ⟨h1, h2, h3⟩ | ⟨r, rfl, h2, h3⟩
    · cases s with
      | nil => exact absurd rfl (of_decide_eq_true h1).1
      | cons c r =>
        unfold readNum
        dsimp only
        rw [if_neg (fun e => h2 (by rw [e]; rfl)), if_pos h1, h3]
    · unfold readNum
      dsimp only
      rw [if_pos rfl, if_pos h2, h3]
  · have nat : ∀ r, isNatText r = true → IntText (decimalVal r : Int) r ∧ ∃ z, IntText z ('-' :: r) := by
      intro r hr
      have e := isNatText_is hr
      refine ⟨.inl e.symm, ?_⟩
      cases hv : decimalVal r with
      | zero =>
        rw [hv] at e
        exact ⟨0, .inr ⟨rfl, by rw [← e]; rfl⟩⟩
      | succ n =>
        rw [hv] at e
        exact ⟨Int.negSucc n, .inl (by rw [← e]; rfl)⟩
    cases s with
    | nil => exact absurd rfl h1
    | cons c r =>
      unfold readNum
      dsimp only
      split
      · rename_i g
        subst g
        rw [if_neg fun g => h3 (nat r g).2]
        exact h4
      · rw [if_neg fun g => h3 ⟨_, (nat _ g).1⟩]
        exact h4

theorem readAtom_of {fl : Floats} {q : ℚ} {s r : Str} (h : NumText fl q s) (hr : Ends r) :
    readAtom fl (s ++ r) = some (.num q, r) := by
  obtain ⟨h1, h2⟩ := numText_chars h
  obtain ⟨g1, g2⟩ := takeWhile_text h2 hr
  obtain ⟨c, t, rfl⟩ := List.exists_cons_of_ne_nil h1
  have hc := h2 c List.mem_cons_self
  unfold readAtom
  split
  · rename_i e; obtain rfl := (List.cons.inj e).1; exact absurd hc (by decide)
  · rename_i e; obtain rfl := (List.cons.inj e).1; exact absurd hc (by decide)
  · rename_i e; obtain rfl := (List.cons.inj e).1; exact absurd hc (by decide)
  · rw [g1, g2, readNum_of h]
    rfl

/-! ## Members -/

theorem eq_of_names : ∀ (d e : Dict Str Json), d.map Prod.fst = e.map Prod.fst → (d.map Prod.fst).Nodup →
    (∀ k v, (k, v) ∈ d ↔ (k, v) ∈ e) → d = e := by
  intro d
  induction d with
  | nil =>
    intro e h _ _
    cases e with
    | nil => rfl
    | cons m e => cases h
  | cons m d ih =>
    intro e h hn hm
    cases e with
    | nil => cases h
    | cons m' e =>
      obtain ⟨k, v⟩ := m
      obtain ⟨k', v'⟩ := m'
      rw [List.map_cons, List.map_cons] at h
      obtain ⟨rfl, ht⟩ : k = k' ∧ d.map Prod.fst = e.map Prod.fst := List.cons.inj h
      rw [List.map_cons, List.nodup_cons] at hn
      have notin : ∀ w, (k, w) ∉ d := fun w g => hn.1 (List.mem_map.2 ⟨_, g, rfl⟩)
      have notin' : ∀ w, (k, w) ∉ e := fun w g => hn.1 (by show k ∈ d.map Prod.fst; rw [ht]; exact List.mem_map.2 ⟨_, g, rfl⟩)
      have hv : v = v' := by
        rcases List.mem_cons.1 ((hm k v).1 List.mem_cons_self) with g | g
        · exact (Prod.mk.inj g).2
        · exact absurd g (notin' v)
      subst hv
      rw [ih e ht hn.2 fun x w => ?_]
      constructor
      · intro g
        rcases List.mem_cons.1 ((hm x w).1 (List.mem_cons_of_mem _ g)) with g' | g'
        · cases g'; exact absurd g (notin _)
        · exact g'
      · intro g
        rcases List.mem_cons.1 ((hm x w).2 (List.mem_cons_of_mem _ g)) with g' | g'
        · cases g'; exact absurd g (notin' _)
        · exact g'

theorem merge_of {l : List (Str × Json)} {d : Dict Str Json} (h : LastCounts l d) : merge l = d := by
  have hm := lastCounts_merge l
  exact eq_of_names _ _ (by rw [hm.1, h.1]) (lastCounts_nodup hm) fun k v => by rw [hm.2, h.2]

/-! ## Documents -/

theorem text_head {fl : Floats} {d : Nat} {j : Json} {t : Str} (h : ValueText fl d j t) :
    ∃ c r, t = c :: r ∧ isBlank c = false ∧ c ≠ ']' := by
  cases h with
  | null => exact ⟨_, _, rfl, by decide, by decide⟩
  | true => exact ⟨_, _, rfl, by decide, by decide⟩
  | false => exact ⟨_, _, rfl, by decide, by decide⟩
  | num _ q _ hs =>
    obtain ⟨h1, h2⟩ := numText_chars hs
    obtain ⟨c, r, rfl⟩ := List.exists_cons_of_ne_nil h1
    have hc := (isNumChar_iff c).1 (h2 c List.mem_cons_self)
    have all : ∀ c ∈ "0123456789-+.eE".toList, isBlank c = false ∧ c ≠ ']' := by decide
    exact ⟨c, r, rfl, all c hc⟩
  | str => exact ⟨_, _, rfl, by decide, by decide⟩
  | noItems => exact ⟨_, _, rfl, by decide, by decide⟩
  | items => exact ⟨_, _, rfl, by decide, by decide⟩
  | noMembers => exact ⟨_, _, rfl, by decide, by decide⟩
  | members => exact ⟨_, _, rfl, by decide, by decide⟩

theorem read_of (fl : Floats) : ∀ n : Nat,
    (∀ d a t r j, Blanks a → ValueText fl d j t → Ends r → t.length < n → readValue fl n d (a ++ (t ++ r)) = some (j, r)) ∧
    (∀ d t r l, ItemsText fl d l t → t.length + 1 < n → readItems fl n d (t ++ ']' :: r) = some (l, r)) ∧
    (∀ d t r l, MembersText fl d l t → t.length + 1 < n → readMembers fl n d (t ++ '}' :: r) = some (l, r)) := by
  intro n
  induction n with
  | zero => exact ⟨fun _ _ _ _ _ _ _ _ h => (by cases h), fun _ _ _ _ _ h => (by cases h), fun _ _ _ _ _ h => (by cases h)⟩
  | succ n ih =>
    obtain ⟨ihv, ihi, ihm⟩ := ih
    refine ⟨?_, ?_, ?_⟩
    · intro d a t r j ha h hr hn
      have hh := text_head h
      cases h with
      | null =>
        rw [readValue, show "null".toList ++ r = 'n' :: ("ull".toList ++ r) from rfl, skip_to ha (by decide)]
        rfl
      | true =>
        rw [readValue, show "true".toList ++ r = 't' :: ("rue".toList ++ r) from rfl, skip_to ha (by decide)]
        rfl
      | false =>
        rw [readValue, show "false".toList ++ r = 'f' :: ("alse".toList ++ r) from rfl, skip_to ha (by decide)]
        rfl
      | num _ q _ hs =>
        have hat := readAtom_of hs hr
        obtain ⟨c, u, rfl, hc, _⟩ := hh
        have hnum := (numText_chars hs).2 c List.mem_cons_self
        rw [readValue, List.cons_append, skip_to ha hc]
        dsimp only
        rw [if_neg (by rintro rfl; exact absurd hnum (by decide)), if_neg (by rintro rfl; exact absurd hnum (by decide)),
          if_neg (by rintro rfl; exact absurd hnum (by decide))]
        exact hat
      | str _ s u hs =>
        rw [readValue, List.cons_append, skip_to ha (by decide)]
        dsimp only
        rw [if_pos rfl, List.append_assoc, List.singleton_append, readChars_of hs _ _ (by rw [List.length_append]; omega)]
        rfl
      | noItems d b hb =>
        rw [readValue, List.cons_append, skip_to ha (by decide)]
        dsimp only
        rw [if_neg (by decide), if_pos rfl, if_neg (Nat.succ_ne_zero d), List.append_assoc, List.singleton_append,
          skip_to hb (by decide)]
        rfl
      | items d l u hu =>
        rw [readValue, List.cons_append, skip_to ha (by decide)]
        dsimp only
        rw [if_neg (by decide), if_pos rfl, if_neg (Nat.succ_ne_zero d), List.append_assoc, List.singleton_append, if_neg,
          Nat.add_sub_cancel, ihi _ _ _ _ hu (by simp at hn; omega)]
        · rfl
        · cases hu with
          | one _ x a t b h1 h2 h3 =>
            obtain ⟨c, v, rfl, hc, hc'⟩ := text_head h2
            rw [List.append_assoc, List.append_assoc, List.cons_append, skip_to h1 hc]
            exact fun e => hc' (Option.some.inj e)
          | cons _ x l a t b u h1 h2 h3 h4 =>
            obtain ⟨c, v, rfl, hc, hc'⟩ := text_head h2
            rw [List.append_assoc, List.append_assoc, List.cons_append, skip_to h1 hc]
            exact fun e => hc' (Option.some.inj e)
      | noMembers d b hb =>
        rw [readValue, List.cons_append, skip_to ha (by decide)]
        dsimp only
        rw [if_neg (by decide), if_neg (by decide), if_pos rfl, if_neg (Nat.succ_ne_zero d), List.append_assoc,
          List.singleton_append, skip_to hb (by decide)]
        rfl
      | members d l m u hu hl =>
        rw [readValue, List.cons_append, skip_to ha (by decide)]
        dsimp only
        rw [if_neg (by decide), if_neg (by decide), if_pos rfl, if_neg (Nat.succ_ne_zero d), List.append_assoc,
          List.singleton_append, if_neg, Nat.add_sub_cancel, ihm _ _ _ _ hu (by simp at hn; omega)]
        · show some (Json.obj (merge l), r) = _
          rw [merge_of hl]
        · cases hu with
          | one _ k x a s b c t e h1 =>
            rw [List.append_assoc, List.cons_append, skip_to h1 (by decide)]
            exact fun e => absurd (Option.some.inj e) (by decide)
          | cons _ k x l a s b c t e u h1 =>
            rw [List.append_assoc, List.cons_append, skip_to h1 (by decide)]
            exact fun e => absurd (Option.some.inj e) (by decide)
    · intro d t r l h hn
      cases h with
      | one _ x a t b h1 h2 h3 =>
        have e : (a ++ (t ++ b)) ++ ']' :: r = a ++ (t ++ (b ++ ']' :: r)) := by simp only [List.append_assoc]
        simp only [List.length_append] at hn
        rw [e, readItems, ihv _ _ _ _ _ h1 h2 (ends_blanks h3 (by decide)) (by omega)]
        dsimp only
        rw [skip_to h3 (by decide), List.head?_cons, List.tail_cons, if_neg (by decide), if_pos rfl]
      | cons _ x l a t b u h1 h2 h3 h4 =>
        have e : (a ++ (t ++ (b ++ ',' :: u))) ++ ']' :: r = a ++ (t ++ (b ++ ',' :: (u ++ ']' :: r))) := by
          simp only [List.append_assoc, List.cons_append]
        simp only [List.length_append, List.length_cons] at hn
        rw [e, readItems, ihv _ _ _ _ _ h1 h2 (ends_blanks h3 (by decide)) (by omega)]
        dsimp only
        rw [skip_to h3 (by decide), List.head?_cons, List.tail_cons, if_pos rfl, ihi _ _ _ _ h4 (by omega)]
        rfl
    · intro d t r l h hn
      cases h with
      | one _ k x a s b c t f h1 h2 h3 h4 h5 h6 =>
        have e : (a ++ '"' :: (s ++ '"' :: (b ++ ':' :: (c ++ (t ++ f))))) ++ '}' :: r =
            a ++ '"' :: (s ++ '"' :: (b ++ ':' :: (c ++ (t ++ (f ++ '}' :: r))))) := by
          simp only [List.append_assoc, List.cons_append]
        simp only [List.length_append, List.length_cons] at hn
        rw [e, readMembers, skip_to h1 (by decide), List.head?_cons, List.tail_cons, if_pos rfl,
          readChars_of h2 _ _ (by simp only [List.length_append, List.length_cons]; omega)]
        dsimp only
        rw [skip_to h3 (by decide), List.head?_cons, List.tail_cons, if_pos rfl,
          ihv _ _ _ _ _ h4 h5 (ends_blanks h6 (by decide)) (by omega)]
        dsimp only
        rw [skip_to h6 (by decide), List.head?_cons, List.tail_cons, if_neg (by decide), if_pos rfl]
      | cons _ k x l a s b c t f u h1 h2 h3 h4 h5 h6 h7 =>
        have e : (a ++ '"' :: (s ++ '"' :: (b ++ ':' :: (c ++ (t ++ (f ++ ',' :: u)))))) ++ '}' :: r =
            a ++ '"' :: (s ++ '"' :: (b ++ ':' :: (c ++ (t ++ (f ++ ',' :: (u ++ '}' :: r)))))) := by
          simp only [List.append_assoc, List.cons_append]
        simp only [List.length_append, List.length_cons] at hn
        rw [e, readMembers, skip_to h1 (by decide), List.head?_cons, List.tail_cons, if_pos rfl,
          readChars_of h2 _ _ (by simp only [List.length_append, List.length_cons]; omega)]
        dsimp only
        rw [skip_to h3 (by decide), List.head?_cons, List.tail_cons, if_pos rfl,
          ihv _ _ _ _ _ h4 h5 (ends_blanks h6 (by decide)) (by omega)]
        dsimp only
        rw [skip_to h6 (by decide), List.head?_cons, List.tail_cons, if_pos rfl, ihm _ _ _ _ h7 (by omega)]
        rfl

/-- all JSON is read -/
theorem parse_of {fl : Floats} {limit : Nat} {j : Json} {a t z : Str} (ha : Blanks a) (h : ValueText fl limit j t) (hz : Blanks z) :
    parse fl limit (utf8 (a ++ (t ++ z))) = some j := by
  unfold parse
  rw [utf8Decode_utf8]
  dsimp only
  rw [(read_of fl _).1 _ _ _ _ _ ha h (ends_after hz) (by simp only [List.length_append]; omega)]
  dsimp only
  rw [if_pos]
  have := skip_blanks (s := []) hz
  rw [List.append_nil] at this
  exact this

end Sigstore.JsonIO
