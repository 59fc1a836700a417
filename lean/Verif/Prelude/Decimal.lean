import Verif.Prelude.Basic

/-!
# Decimal numerals: Python `str(n)` on integers
-/

namespace Sigstore

/-- decimal digit of a number below 10 -/
def decDigit (n : Nat) : Char := Char.ofNat (48 + n)

/-- is an ASCII decimal digit -/
def isDecDigit (c : Char) : Bool := 48 ≤ c.toNat && c.toNat ≤ 57

/-- decimal digits of `n`, most significant first, with `fuel` bounding their number -/
def decimalAux : Nat → Nat → Str
  | 0, _ => []
  | fuel + 1, n => if n < 10 then [decDigit n] else decimalAux fuel (n / 10) ++ [decDigit (n % 10)]

/-- Python `str(n)` for a non-negative integer -/
def decimal (n : Nat) : Str := decimalAux (n + 1) n

/-- Python `str(n)` for an integer -/
def decimalInt : Int → Str
  | .ofNat n => decimal n
  | .negSucc n => '-' :: decimal (n + 1)

/-- value of a string of ASCII digits -/
def decimalVal (s : Str) : Nat := s.foldl (fun a c => 10 * a + (c.toNat - 48)) 0

theorem isDecDigit_decDigit : ∀ n, n < 10 → isDecDigit (decDigit n) = true := by decide

theorem val_decDigit : ∀ n, n < 10 → (decDigit n).toNat - 48 = n := by decide

theorem decimalAux_digits (fuel : Nat) : ∀ n, ∀ c ∈ decimalAux fuel n, isDecDigit c = true := by
  induction fuel with
  | zero => intro n c h; simp [decimalAux] at h
  | succ f ih =>
    intro n c h
    rw [decimalAux] at h
    split at h
    · rename_i hn
      have : c = decDigit n := by simpa using h
      subst this; exact isDecDigit_decDigit n hn
    · rcases List.mem_append.1 h with h | h
      · exact ih _ c h
      · have : c = decDigit (n % 10) := by simpa using h
        subst this; exact isDecDigit_decDigit _ (by omega)

theorem decimalAux_val (fuel : Nat) : ∀ n, n < fuel → decimalVal (decimalAux fuel n) = n := by
  induction fuel with
  | zero => intro n h; omega
  | succ f ih =>
    intro n h
    rw [decimalAux]
    split
    · rename_i hn; simp [decimalVal, val_decDigit n hn]
    · rw [decimalVal, List.foldl_append, ← decimalVal, ih (n / 10) (by omega)]
      simp only [List.foldl_cons, List.foldl_nil, val_decDigit (n % 10) (by omega)]
      omega

theorem decimalAux_ne_nil (fuel n : Nat) (h : 0 < fuel) : decimalAux fuel n ≠ [] := by
  cases fuel with
  | zero => omega
  | succ f => rw [decimalAux]; split <;> simp

theorem decimal_digits (n : Nat) : ∀ c ∈ decimal n, isDecDigit c = true := decimalAux_digits _ n

theorem decimalVal_decimal (n : Nat) : decimalVal (decimal n) = n := decimalAux_val _ n (by omega)

theorem decimal_ne_nil (n : Nat) : decimal n ≠ [] := decimalAux_ne_nil _ n (by omega)

theorem decimal_injective : Function.Injective decimal := by
  intro a b h
  have := decimalVal_decimal a
  rw [h, decimalVal_decimal] at this
  exact this.symm

theorem decimalInt_injective : Function.Injective decimalInt := by
  have hd : ∀ a b, decimal a = '-' :: b → False := by
    intro a b h
    have := decimal_digits a '-' (by rw [h]; simp)
    revert this; decide
  intro a b h
  cases a with
  | ofNat a => cases b with
    | ofNat b => rw [decimalInt, decimalInt] at h; rw [decimal_injective h]
    | negSucc b => exact absurd h (fun h => hd _ _ h)
  | negSucc a => cases b with
    | ofNat b => exact absurd h.symm (fun h => hd _ _ h)
    | negSucc b =>
      rw [decimalInt, decimalInt] at h
      have := decimal_injective (List.cons.inj h).2
      have : a = b := by omega
      rw [this]

/-- characters of an integer numeral -/
theorem decimalInt_chars (n : Int) : ∀ c ∈ decimalInt n, isDecDigit c = true ∨ c = '-' := by
  intro c h
  cases n with
  | ofNat n => exact .inl (decimal_digits n c h)
  | negSucc n =>
    rw [decimalInt] at h
    rcases List.mem_cons.1 h with h | h
    · exact .inr h
    · exact .inl (decimal_digits _ c h)

/-- Two texts that agree after a delimiter which occurs in neither prefix agree before and after. -/
theorem split_at_delim {α : Type} (d : α) : ∀ (a b x y : List α), d ∉ a → d ∉ b →
    a ++ d :: x = b ++ d :: y → a = b ∧ x = y := by
  intro a
  induction a with
  | nil =>
    intro b x y _ hb h
    cases b with
    | nil => simpa using h
    | cons c b =>
      simp only [List.nil_append, List.cons_append, List.cons.injEq] at h
      exact absurd (by simp [h.1]) hb
  | cons c a ih =>
    intro b x y ha hb h
    cases b with
    | nil =>
      simp only [List.nil_append, List.cons_append, List.cons.injEq] at h
      exact absurd (by simp [h.1]) ha
    | cons e b =>
      simp only [List.cons_append, List.cons.injEq] at h
      have := ih b x y (fun hm => ha (by simp [hm])) (fun hm => hb (by simp [hm])) h.2
      exact ⟨by rw [h.1, this.1], this.2⟩

end Sigstore
