import Verif.Prelude.Basic

/-!
# Python `str` methods
-/

namespace Sigstore

/-- `str.isspace` on one code point; this is also the complement of the regex class `\S`. -/
def isPySpace (c : Char) : Bool :=
  let n := c.toNat
  (9 ≤ n && n ≤ 13) || (0x1C ≤ n && n ≤ 0x20) || n == 0x85 || n == 0xA0 || n == 0x1680 ||
  (0x2000 ≤ n && n ≤ 0x200A) || n == 0x2028 || n == 0x2029 || n == 0x202F || n == 0x205F || n == 0x3000

/-- Python `s.lstrip()` -/
def lstrip (s : Str) : Str := s.dropWhile isPySpace

/-- Python `s.strip()` -/
def strip (s : Str) : Str := (lstrip (lstrip s).reverse).reverse

/-- Python `s.split("\n")`: always at least one element -/
def splitLines : Str → List Str
  | [] => [[]]
  | c :: s =>
    if c = '\n' then [] :: splitLines s
    else
      match splitLines s with
      | [] => [[c]]
      | l :: ls => (c :: l) :: ls

/-! ## Lemmas -/

theorem dropWhile_all {α : Type} (p : α → Bool) (x y : List α) (hx : ∀ c ∈ x, p c = true) :
    (x ++ y).dropWhile p = y.dropWhile p := by
  induction x with
  | nil => rfl
  | cons c x ih =>
    rw [List.cons_append, List.dropWhile_cons, if_pos (hx c (by simp))]
    exact ih fun d hd => hx d (by simp [hd])

theorem lstrip_of_head {s : Str} (h : ∀ c ∈ s.head?, isPySpace c = false) : lstrip s = s := by
  cases s with
  | nil => rfl
  | cons c s =>
    have := h c (by simp)
    simp [lstrip, this]

/-- stripping a text that ends in blanks and whose core neither starts nor ends with one -/
theorem strip_eq {x ws : Str} (hx : x ≠ []) (hf : ∀ c ∈ x.head?, isPySpace c = false)
    (hl : ∀ c ∈ x.getLast?, isPySpace c = false) (hw : ∀ c ∈ ws, isPySpace c = true) :
    strip (x ++ ws) = x := by
  have h1 : lstrip (x ++ ws) = x ++ ws := by
    apply lstrip_of_head
    intro c hc
    obtain ⟨a, t, rfl⟩ := List.exists_cons_of_ne_nil hx
    exact hf c (by simpa using hc)
  unfold strip
  rw [h1, List.reverse_append]
  have h2 : lstrip (ws.reverse ++ x.reverse) = x.reverse := by
    unfold lstrip
    rw [dropWhile_all _ _ _ (fun c hc => hw c (by simpa using hc))]
    exact lstrip_of_head (by intro c hc; exact hl c (by simpa using hc))
  rw [h2, List.reverse_reverse]

theorem splitLines_ne_nil (s : Str) : splitLines s ≠ [] := by
  induction s with
  | nil => simp [splitLines]
  | cons c s ih =>
    rw [splitLines]
    split
    · simp
    · split <;> simp

theorem splitLines_line (l s : Str) (h : '\n' ∉ l) : splitLines (l ++ '\n' :: s) = l :: splitLines s := by
  induction l with
  | nil => simp [splitLines]
  | cons c l ih =>
    have hc : c ≠ '\n' := fun e => h (by simp [e])
    rw [List.cons_append, splitLines, if_neg hc, ih (fun hm => h (by simp [hm]))]

theorem splitLines_last (l : Str) (h : '\n' ∉ l) : splitLines l = [l] := by
  induction l with
  | nil => rfl
  | cons c l ih =>
    have hc : c ≠ '\n' := fun e => h (by simp [e])
    rw [splitLines, if_neg hc, ih (fun hm => h (by simp [hm]))]

/-- joining with newlines inverts `split` -/
theorem splitLines_intercalate : ∀ (ls : List Str), ls ≠ [] → (∀ l ∈ ls, '\n' ∉ l) →
    splitLines (List.intercalate ['\n'] ls) = ls := by
  intro ls
  induction ls with
  | nil => intro h; exact absurd rfl h
  | cons l ls ih =>
    intro _ h
    cases ls with
    | nil => simpa [List.intercalate] using splitLines_last l (h l (by simp))
    | cons l' ls =>
      have e : List.intercalate ['\n'] (l :: l' :: ls) = l ++ '\n' :: List.intercalate ['\n'] (l' :: ls) := by
        simp [List.intercalate]
      rw [e, splitLines_line _ _ (h l (by simp)), ih (by simp) (fun x hx => h x (by simp [hx]))]

end Sigstore
