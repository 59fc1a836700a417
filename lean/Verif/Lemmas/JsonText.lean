import Verif.Spec.JsonText

/-!
# Lemmas on JSON text: what is written is read back
-/

namespace Sigstore.JsonIO

open Sigstore.Spec

theorem skip_of_not {c : Char} {r : Str} (h : isBlank c = false) : skip (c :: r) = c :: r := by
  unfold skip
  rw [List.dropWhile_cons, h]
  rfl

/-! ## Texts -/

theorem readChars_escape (n : Nat) (c : Char) (t : Str) :
    readChars (n + 1) (escape c ++ t) = (readChars n t).map fun p => (c :: p.1, p.2) := by
  unfold escape
  split
  · rename_i h; subst h; rfl
  split
  · rename_i h; subst h; rfl
  split
  · rename_i h; subst h; rfl
  split
  · rename_i h; subst h; rfl
  split
  · rename_i h; subst h; rfl
  split
  · rename_i h; subst h; rfl
  split
  · rename_i h; subst h; rfl
  split
  · rename_i h1 h2 _ _ _ _ _ h
    have hd : c.toNat / 16 < 16 := by omega
    have hm : c.toNat % 16 < 16 := by omega
    have hu : readEscape ('u' :: '0' :: '0' :: hexDigit (c.toNat / 16) :: hexDigit (c.toNat % 16) :: t) = some (c, t) := by
      show readUnicode _ = _
      unfold readUnicode hex4
      dsimp only
      rw [hexVal_hexDigit _ hd, hexVal_hexDigit _ hm, show hexVal '0' = some 0 from rfl]
      dsimp only
      have e : ((0 * 16 + 0) * 16 + c.toNat / 16) * 16 + c.toNat % 16 = c.toNat := by omega
      rw [e, if_pos (.inl (by omega)), Char.ofNat_toNat]
    show readChars (n + 1) ('\\' :: 'u' :: '0' :: '0' :: hexDigit (c.toNat / 16) :: hexDigit (c.toNat % 16) :: t) = _
    rw [readChars, if_neg (by decide), if_pos rfl, hu]
  · rename_i h1 h2 _ _ _ _ _ h
    show readChars (n + 1) (c :: t) = _
    rw [readChars, if_neg h1, if_neg h2, if_neg h]

theorem readChars_write (s rest : Str) : ∀ n, s.length < n → readChars n (writeChars s ++ rest) = some (s, rest) := by
  induction s with
  | nil =>
    intro n h
    cases n with
    | zero => cases h
    | succ n => rfl
  | cons c s ih =>
    intro n h
    cases n with
    | zero => cases h
    | succ n =>
      have : writeChars (c :: s) ++ rest = escape c ++ (writeChars s ++ rest) := by
        unfold writeChars
        rw [List.flatMap_cons]
        simp only [List.append_assoc]
      rw [this, readChars_escape, ih n (Nat.lt_of_succ_lt_succ h)]
      rfl

theorem length_escape (c : Char) : 1 ≤ (escape c).length := by
  unfold escape
  repeat' split
  all_goals simp

theorem length_writeChars (s : Str) : s.length < (writeChars s).length := by
  induction s with
  | nil => simp [writeChars]
  | cons c s ih =>
    have h1 := length_escape c
    simp only [writeChars, List.flatMap_cons, List.length_append, List.length_cons, List.length_nil] at ih ⊢
    omega

/-! ## Numbers -/

theorem decimalAux_fuel (n : Nat) : ∀ f g, n < f → n < g → decimalAux f n = decimalAux g n := by
  induction n using Nat.strongRecOn with
  | _ n ih =>
    intro f g hf hg
    cases f with
    | zero => cases hf
    | succ f =>
      cases g with
      | zero => cases hg
      | succ g =>
        rw [decimalAux, decimalAux]
        by_cases h : n < 10
        · rw [if_pos h, if_pos h]
        · rw [if_neg h, if_neg h, ih (n / 10) (by omega) f g (by omega) (by omega)]

theorem decimal_small {n : Nat} (h : n < 10) : decimal n = [decDigit n] := by
  unfold decimal
  rw [decimalAux, if_pos h]

theorem decimal_step {n : Nat} (h : ¬ n < 10) : decimal n = decimal (n / 10) ++ [decDigit (n % 10)] := by
  unfold decimal
  rw [decimalAux, if_neg h, decimalAux_fuel (n / 10) n (n / 10 + 1) (by omega) (by omega)]

theorem decimal_head (n : Nat) : (decimal n).head? = some '0' → n = 0 := by
  induction n using Nat.strongRecOn with
  | _ n ih =>
    intro h
    by_cases hn : n < 10
    · rw [decimal_small hn] at h
      revert h
      have : ∀ m, m < 10 → some (decDigit m) = some '0' → m = 0 := by decide
      exact this n hn
    · rw [decimal_step hn] at h
      have hne := decimal_ne_nil (n / 10)
      have : (decimal (n / 10)).head? = some '0' := by
        cases hd : decimal (n / 10) with
        | nil => exact absurd hd hne
        | cons c r => rw [hd] at h; exact h
      have := ih (n / 10) (by omega) this
      omega

theorem isNatText_decimal (n : Nat) : isNatText (decimal n) = true := by
  unfold isNatText
  refine decide_eq_true ⟨decimal_ne_nil n, List.all_eq_true.2 (decimal_digits n), fun h => ?_⟩
  rw [decimal_head n h]
  rfl

theorem minus_ne_digit {c : Char} (h : isDecDigit c = true) : c ≠ '-' := by
  rintro rfl
  exact absurd h (by decide)

theorem readNum_decimal (fl : Floats) (n : Nat) : readNum fl (decimal n) = some ((n : Int) : ℚ) := by
  have h1 := isNatText_decimal n
  have h2 := decimalVal_decimal n
  have h3 := decimal_digits n
  have h4 := decimal_ne_nil n
  generalize decimal n = s at h1 h2 h3 h4
  cases s with
  | nil => exact absurd rfl h4
  | cons c r =>
    unfold readNum
    dsimp only
    rw [if_neg (minus_ne_digit (h3 c List.mem_cons_self)), if_pos h1, h2]

theorem readNum_decimalInt (fl : Floats) (z : Int) : readNum fl (decimalInt z) = some (z : ℚ) := by
  cases z with
  | ofNat n => exact readNum_decimal fl n
  | negSucc n =>
    unfold readNum decimalInt
    dsimp only
    rw [if_pos rfl, if_pos (isNatText_decimal _), decimalVal_decimal]
    rfl

theorem readNum_kept {fl : Floats} {q : ℚ} (h : FloatKept fl q) : readNum fl (fl.write q) = some q := by
  obtain ⟨h1, _, ⟨x, hx, hx'⟩, c, r, h3, h4⟩ := h
  have hd : isDecDigit x = false := by rcases hx' with rfl | rfl | rfl <;> decide
  have hm : x ≠ '-' := by rcases hx' with rfl | rfl | rfl <;> decide
  have key : ∀ l : Str, x ∈ l → isNatText l = false := by
    intro l hl
    refine decide_eq_false fun g => ?_
    have := List.all_eq_true.1 g.2.1 x hl
    rw [hd] at this
    cases this
  rw [h3] at h1 hx ⊢
  unfold readNum
  dsimp only
  split
  · rename_i hc
    subst hc
    have : x ∈ r := by
      rcases List.mem_cons.1 hx with h | h
      · exact absurd h hm
      · exact h
    rw [key r this]
    exact h1
  · rw [key _ hx]
    exact h1

/-- the text of a number -/
theorem writeNum_text {fl : Floats} {q : ℚ} (h : q.den = 1 ∨ FloatKept fl q) :
    readNum fl (writeNum fl q) = some q ∧ (∀ c ∈ writeNum fl q, isNumChar c = true) ∧
      ∃ c r, writeNum fl q = c :: r ∧ (isDecDigit c = true ∨ c = '-') := by
  unfold writeNum
  by_cases hq : q.den = 1
  · rw [if_pos hq]
    refine ⟨?_, ?_, ?_⟩
    · rw [readNum_decimalInt, (Rat.den_eq_one_iff q).1 hq]
    · intro c hc
      unfold isNumChar
      rcases decimalInt_chars _ c hc with h | rfl
      · rw [h]; rfl
      · decide
    · have hc := decimalInt_chars q.num
      cases hd : decimalInt q.num with
      | nil =>
        cases hz : q.num with
        | ofNat n => rw [hz] at hd; exact absurd hd (decimal_ne_nil n)
        | negSucc n => rw [hz] at hd; cases hd
      | cons c r => exact ⟨c, r, rfl, hc c (by rw [hd]; exact List.mem_cons_self)⟩
  · rw [if_neg hq]
    have hk := h.resolve_left hq
    refine ⟨readNum_kept hk, ?_, ?_⟩
    · intro c hc
      have := hk.2.1 c hc
      have all : ∀ c ∈ "0123456789-+.eE".toList, isNumChar c = true := by decide
      exact all c this
    · obtain ⟨c, r, h1, h2⟩ := hk.2.2.2
      have all : ∀ c ∈ "0123456789-".toList, isDecDigit c = true ∨ c = '-' := by decide
      exact ⟨c, r, h1, all c h2⟩

/-- what follows does not continue a number -/
def Ends (rest : Str) : Prop := ∀ c r, rest = c :: r → isNumChar c = false

theorem takeWhile_text {t rest : Str} (h : ∀ c ∈ t, isNumChar c = true) (hr : Ends rest) :
    (t ++ rest).takeWhile isNumChar = t ∧ (t ++ rest).dropWhile isNumChar = rest := by
  induction t with
  | nil =>
    cases rest with
    | nil => exact ⟨rfl, rfl⟩
    | cons c r =>
      have := hr c r rfl
      rw [List.nil_append, List.takeWhile_cons, List.dropWhile_cons, this]
      exact ⟨rfl, rfl⟩
  | cons c t ih =>
    have hc := h c List.mem_cons_self
    obtain ⟨h1, h2⟩ := ih fun x hx => h x (List.mem_cons_of_mem _ hx)
    rw [List.cons_append, List.takeWhile_cons, List.dropWhile_cons, hc]
    exact ⟨by rw [if_pos rfl, h1], by rw [if_pos rfl, h2]⟩

theorem readAtom_num {fl : Floats} {q : ℚ} (h : q.den = 1 ∨ FloatKept fl q) {rest : Str} (hr : Ends rest) :
    readAtom fl (writeNum fl q ++ rest) = some (.num q, rest) := by
  obtain ⟨h1, h2, c, r, h3, h4⟩ := writeNum_text h
  obtain ⟨g1, g2⟩ := takeWhile_text h2 hr
  have hc : c ≠ 'n' ∧ c ≠ 't' ∧ c ≠ 'f' := by
    refine ⟨?_, ?_, ?_⟩ <;> (rintro rfl; revert h4; decide)
  unfold readAtom
  split
  · rename_i e; rw [h3] at e; exact absurd (List.cons.inj e).1 hc.1
  · rename_i e; rw [h3] at e; exact absurd (List.cons.inj e).1 hc.2.1
  · rename_i e; rw [h3] at e; exact absurd (List.cons.inj e).1 hc.2.2
  · rw [g1, g2, h1]
    rfl

/-! ## Members -/

theorem set_append {d : Dict Str Json} {k : Str} {v : Json} (h : k ∉ d.map Prod.fst) : Dict.set d k v = d ++ [(k, v)] := by
  induction d with
  | nil => rfl
  | cons m d ih =>
    rw [Dict.set, if_neg (fun e => h (by rw [← e]; exact List.mem_cons_self)), ih fun g => h (List.mem_cons_of_mem _ g)]
    rfl

theorem merge_append (l : List (Str × Json)) : ∀ d : Dict Str Json, ((d ++ l).map Prod.fst).Nodup →
    l.foldl (fun d m => Dict.set d m.1 m.2) d = d ++ l := by
  induction l with
  | nil => intro d _; rw [List.append_nil]; rfl
  | cons m l ih =>
    intro d h
    have hm : m.1 ∉ d.map Prod.fst := by
      rw [List.map_append, List.nodup_append] at h
      intro g
      exact h.2.2 m.1 g m.1 (by simp) rfl
    rw [List.foldl_cons, set_append hm, ih _ (by rw [List.append_assoc]; exact h), List.append_assoc]
    rfl

theorem merge_nodup {l : List (Str × Json)} (h : (l.map Prod.fst).Nodup) : merge l = l := merge_append l [] h

/-! ## Documents -/

theorem kept_item {fl : Floats} {l : List Json} {x : Json} (h : TextKept fl (.arr l)) (hx : x ∈ l) : TextKept fl x :=
  ⟨fun q hq => h.1 q (.item _ _ _ hx hq), fun m hm => h.2 m (.item _ _ _ hx hm)⟩

theorem kept_member {fl : Floats} {l : List (Str × Json)} {m : Str × Json} (h : TextKept fl (.obj l)) (hm : m ∈ l) :
    TextKept fl m.2 :=
  ⟨fun q hq => h.1 q (.member _ _ _ hm hq), fun o ho => h.2 o (.member _ _ _ hm ho)⟩

/-- how documents begin -/
theorem write_head {fl : Floats} {j : Json} (h : TextKept fl j) :
    ∃ c r, write fl j = c :: r ∧ isBlank c = false ∧ c ≠ ']' := by
  cases j with
  | null => exact ⟨_, _, rfl, by decide, by decide⟩
  | bool b => cases b <;> exact ⟨_, _, rfl, by decide, by decide⟩
  | num q =>
    obtain ⟨_, _, c, r, h3, h4⟩ := writeNum_text (h.1 q (.self _))
    refine ⟨c, r, h3, ?_, ?_⟩
    · rcases h4 with h4 | rfl
      · unfold isBlank
        refine decide_eq_false ?_
        rintro (rfl | rfl | rfl | rfl) <;> revert h4 <;> decide
      · decide
    · rintro rfl; revert h4; decide
  | str s => exact ⟨_, _, rfl, by decide, by decide⟩
  | arr l => cases l <;> exact ⟨_, _, rfl, by decide, by decide⟩
  | obj l => cases l <;> exact ⟨_, _, rfl, by decide, by decide⟩

theorem ends_items (fl : Floats) (l : List Json) (rest : Str) : Ends (writeItems fl l ++ rest) := by
  cases l <;> (intro c r h; cases h; decide)

theorem ends_members (fl : Floats) (l : List (Str × Json)) (rest : Str) : Ends (writeMembers fl l ++ rest) := by
  cases l <;> (intro c r h; cases h; decide)

theorem depth_arr {d : Nat} {l : List Json} (h : DepthLe d (.arr l)) : d ≠ 0 ∧ ∀ x ∈ l, DepthLe (d - 1) x := by
  cases h with
  | arr d _ h => exact ⟨Nat.succ_ne_zero d, h⟩

theorem depth_obj {d : Nat} {l : List (Str × Json)} (h : DepthLe d (.obj l)) : d ≠ 0 ∧ ∀ m ∈ l, DepthLe (d - 1) m.2 := by
  cases h with
  | obj d _ h => exact ⟨Nat.succ_ne_zero d, h⟩

mutual

theorem readValue_write (fl : Floats) (j : Json) : ∀ n d rest, TextKept fl j → DepthLe d j → (write fl j).length < n → Ends rest →
    readValue fl n d (write fl j ++ rest) = some (j, rest) := by
  intro n d rest hk hd hn hr
  cases n with
  | zero => cases hn
  | succ n =>
    match j with
    | .null => rfl
    | .bool true => rfl
    | .bool false => rfl
    | .num q =>
      obtain ⟨c, r, h1, h2, _⟩ := write_head hk
      have ha := readAtom_num (hk.1 q (.self _)) hr
      obtain ⟨_, _, c', r', h3, h4⟩ := writeNum_text (hk.1 q (.self _))
      show readValue fl (n + 1) d (writeNum fl q ++ rest) = _
      have e : c = c' := by
        have : write fl (.num q) = writeNum fl q := rfl
        rw [this, h3] at h1
        exact (List.cons.inj h1).1.symm
      subst e
      rw [h3, List.cons_append] at ha ⊢
      rw [readValue, skip_of_not h2]
      dsimp only
      rw [if_neg (by rintro rfl; revert h4; decide), if_neg (by rintro rfl; revert h4; decide),
        if_neg (by rintro rfl; revert h4; decide), ha]
    | .str s =>
      show readValue fl (n + 1) d ('"' :: (writeChars s ++ rest)) = _
      rw [readValue, skip_of_not (by decide)]
      dsimp only
      rw [if_pos rfl, readChars_write _ _ _ (by have := length_writeChars s; simp only [List.length_append]; omega)]
      rfl
    | .arr [] =>
      show readValue fl (n + 1) d ('[' :: ']' :: rest) = _
      rw [readValue, skip_of_not (by decide)]
      dsimp only
      rw [if_neg (by decide), if_pos rfl, if_neg (depth_arr hd).1, skip_of_not (by decide)]
      rfl
    | .arr (x :: xs) =>
      obtain ⟨h0, hx⟩ := depth_arr hd
      have hi := readItems_write fl (x :: xs) x xs rfl n (d - 1) rest (fun y hy => kept_item hk hy) hx
        (by
          have : (write fl (.arr (x :: xs))).length = (write fl x ++ writeItems fl xs).length + 1 := rfl
          omega)
      obtain ⟨c, r, h1, h2, h3⟩ := write_head (kept_item hk List.mem_cons_self)
      show readValue fl (n + 1) d ('[' :: ((write fl x ++ writeItems fl xs) ++ rest)) = _
      rw [readValue, skip_of_not (by decide)]
      dsimp only
      rw [if_neg (by decide), if_pos rfl, if_neg h0, if_neg, hi]
      · rfl
      · rw [h1, List.cons_append, List.cons_append, skip_of_not h2]
        exact fun e => h3 (Option.some.inj e)
    | .obj [] =>
      show readValue fl (n + 1) d ('{' :: '}' :: rest) = _
      rw [readValue, skip_of_not (by decide)]
      dsimp only
      rw [if_neg (by decide), if_neg (by decide), if_pos rfl, if_neg (depth_obj hd).1, skip_of_not (by decide)]
      rfl
    | .obj (m :: ms) =>
      obtain ⟨h0, hx⟩ := depth_obj hd
      have hi := readMembers_write fl (m :: ms) m ms rfl n (d - 1) rest (fun y hy => kept_member hk hy) hx
        (by
          have : (write fl (.obj (m :: ms))).length = (writeMember fl m ++ writeMembers fl ms).length + 1 := rfl
          omega)
      show readValue fl (n + 1) d ('{' :: ((writeMember fl m ++ writeMembers fl ms) ++ rest)) = _
      rw [readValue, skip_of_not (by decide)]
      dsimp only
      rw [if_neg (by decide), if_neg (by decide), if_pos rfl, if_neg h0, if_neg, hi]
      · show some (Json.obj (merge (m :: ms)), rest) = _
        rw [merge_nodup (hk.2 _ (.self _))]
      · obtain ⟨k, v⟩ := m
        show ¬ (skip ('"' :: _)).head? = _
        rw [skip_of_not (by decide)]
        exact fun e => absurd (Option.some.inj e) (by decide)
termination_by structural j

theorem readItems_write (fl : Floats) (l : List Json) : ∀ x xs, l = x :: xs → ∀ n d rest, (∀ y ∈ l, TextKept fl y) →
    (∀ y ∈ l, DepthLe d y) → (write fl x ++ writeItems fl xs).length < n →
    readItems fl n d ((write fl x ++ writeItems fl xs) ++ rest) = some (l, rest) := by
  match l with
  | [] => intro x xs h; cases h
  | y :: ys =>
    intro x xs h n d rest hk hd hn
    cases h
    cases n with
    | zero => cases hn
    | succ n =>
      rw [List.length_append] at hn
      have hpos : 0 < (writeItems fl ys).length := by cases ys <;> exact Nat.succ_pos _
      have hv := readValue_write fl y n d (writeItems fl ys ++ rest) (hk y List.mem_cons_self) (hd y List.mem_cons_self) (by omega)
        (ends_items fl ys rest)
      rw [List.append_assoc, readItems, hv]
      dsimp only
      match ys with
      | [] =>
        rw [show writeItems fl [] ++ rest = ']' :: rest from rfl, skip_of_not (by decide), List.head?_cons, List.tail_cons,
          if_neg (by decide), if_pos rfl]
      | z :: zs =>
        have hi := readItems_write fl (z :: zs) z zs rfl n d rest (fun w hw => hk w (List.mem_cons_of_mem _ hw))
          (fun w hw => hd w (List.mem_cons_of_mem _ hw))
          (by
            have : (writeItems fl (z :: zs)).length = (write fl z ++ writeItems fl zs).length + 1 := rfl
            omega)
        rw [show writeItems fl (z :: zs) ++ rest = ',' :: ((write fl z ++ writeItems fl zs) ++ rest) from rfl, skip_of_not (by decide),
          List.head?_cons, List.tail_cons, if_pos rfl, hi]
        rfl
termination_by structural l

theorem readMembers_write (fl : Floats) (l : List (Str × Json)) : ∀ m ms, l = m :: ms → ∀ n d rest, (∀ y ∈ l, TextKept fl y.2) →
    (∀ y ∈ l, DepthLe d y.2) → (writeMember fl m ++ writeMembers fl ms).length < n →
    readMembers fl n d ((writeMember fl m ++ writeMembers fl ms) ++ rest) = some (l, rest) := by
  match l with
  | [] => intro x xs h; cases h
  | y :: ys =>
    intro x xs h n d rest hk hd hn
    cases h
    cases n with
    | zero => cases hn
    | succ n =>
      rw [List.length_append] at hn
      have hpos : 0 < (writeMembers fl ys).length := by cases ys <;> exact Nat.succ_pos _
      have hv := readMember_write fl y n d (writeMembers fl ys ++ rest) (hk y List.mem_cons_self) (hd y List.mem_cons_self) (by omega)
        (ends_members fl ys rest)
      obtain ⟨k, v⟩ := y
      have e : (writeMember fl (k, v) ++ writeMembers fl ys) ++ rest =
          '"' :: (writeChars k ++ ':' :: (write fl v ++ (writeMembers fl ys ++ rest))) := by
        show ('"' :: (writeChars k ++ ':' :: write fl v) ++ writeMembers fl ys) ++ rest = _
        simp only [List.append_assoc, List.cons_append]
      rw [e, readMembers, skip_of_not (by decide), List.head?_cons, List.tail_cons, if_pos rfl,
        readChars_write _ _ _ (by have := length_writeChars k; simp only [List.length_append, List.length_cons]; omega)]
      dsimp only
      rw [skip_of_not (by decide), List.head?_cons, List.tail_cons, if_pos rfl, hv]
      dsimp only
      match ys with
      | [] =>
        rw [show writeMembers fl [] ++ rest = '}' :: rest from rfl, skip_of_not (by decide), List.head?_cons, List.tail_cons,
          if_neg (by decide), if_pos rfl]
      | z :: zs =>
        have hi := readMembers_write fl (z :: zs) z zs rfl n d rest (fun w hw => hk w (List.mem_cons_of_mem _ hw))
          (fun w hw => hd w (List.mem_cons_of_mem _ hw))
          (by
            have : (writeMembers fl (z :: zs)).length = (writeMember fl z ++ writeMembers fl zs).length + 1 := rfl
            omega)
        rw [show writeMembers fl (z :: zs) ++ rest = ',' :: ((writeMember fl z ++ writeMembers fl zs) ++ rest) from rfl,
          skip_of_not (by decide), List.head?_cons, List.tail_cons, if_pos rfl, hi]
        rfl
termination_by structural l

theorem readMember_write (fl : Floats) (m : Str × Json) : ∀ n d rest, TextKept fl m.2 → DepthLe d m.2 →
    (writeMember fl m).length < n + 1 → Ends rest → readValue fl n d (write fl m.2 ++ rest) = some (m.2, rest) := by
  match m with
  | (k, v) =>
    intro n d rest hk hd hn hr
    refine readValue_write fl v n d rest hk hd ?_ hr
    have : (writeMember fl (k, v)).length = (writeChars k ++ ':' :: write fl v).length + 1 := rfl
    rw [List.length_append, List.length_cons] at this
    omega
termination_by structural m

end

/-- what is written is read back -/
theorem parse_write (fl : Floats) (limit : Nat) (j : Json) (hk : TextKept fl j) (hd : DepthLe limit j) :
    parse fl limit (utf8 (write fl j)) = some j := by
  unfold parse
  rw [utf8Decode_utf8]
  dsimp only
  have := readValue_write fl j ((write fl j).length + 1) limit [] hk hd (Nat.lt_succ_self _) (fun c r h => (by cases h))
  rw [List.append_nil] at this
  rw [this]
  rfl

end Sigstore.JsonIO
