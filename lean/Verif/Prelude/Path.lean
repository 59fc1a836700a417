import Verif.Prelude.Basic

/-!
# `pathlib` paths (POSIX)
-/

namespace Sigstore

/-- A `pathlib.PurePosixPath`: whether it starts at the root, and its components.  Simplification: a path that starts with
exactly two slashes, which POSIX keeps apart, is treated as one that starts with one. -/
structure Path where
  absolute : Bool
  parts : List Str
deriving DecidableEq, Repr

/-- Python `s.split("/")` -/
def splitSlash : Str → List Str
  | [] => [[]]
  | c :: s =>
    if c = '/' then [] :: splitSlash s
    else
      match splitSlash s with
      | [] => [[c]]
      | l :: ls => (c :: l) :: ls

/-- the components that `pathlib` keeps: empty ones and `.` are dropped, `..` stays -/
def pathParts (s : Str) : List Str := (splitSlash s).filter fun p => decide (p ≠ [] ∧ p ≠ ['.'])

/-- `Path(s)` -/
def Path.ofStr (s : Str) : Path := ⟨s.head? = some '/', pathParts s⟩

/-- `p / s` -/
def Path.join (p : Path) (s : Str) : Path :=
  if s.head? = some '/' then Path.ofStr s else ⟨p.absolute, p.parts ++ pathParts s⟩

/-- `p.name` -/
def Path.name (p : Path) : Str := p.parts.getLast?.getD []

/-- `p.parent` -/
def Path.parent (p : Path) : Path := ⟨p.absolute, p.parts.dropLast⟩

/-! ## Lemmas -/

theorem splitSlash_of_not_mem {s : Str} (h : '/' ∉ s) : splitSlash s = [s] := by
  induction s with
  | nil => rfl
  | cons c s ih =>
    have hc : c ≠ '/' := fun e => h (by simp [e])
    rw [splitSlash, if_neg hc, ih (fun hm => h (by simp [hm]))]

/-- joining a single component -/
theorem Path.join_component (p : Path) {s : Str} (h : '/' ∉ s) :
    p.join s = if s = [] ∨ s = ['.'] then p else ⟨p.absolute, p.parts ++ [s]⟩ := by
  have hh : s.head? ≠ some '/' := by
    cases s with
    | nil => simp
    | cons c s => intro e; simp at e; exact h (by simp [e])
  unfold Path.join pathParts
  rw [if_neg hh, splitSlash_of_not_mem h]
  by_cases h1 : s = []
  · subst h1; simp
  · by_cases h2 : s = ['.']
    · subst h2; simp
    · simp [h1, h2]

theorem splitSlash_no_slash (s : Str) : ∀ p ∈ splitSlash s, '/' ∉ p := by
  induction s with
  | nil => intro p hp; simp [splitSlash] at hp; simp [hp]
  | cons c s ih =>
    intro p hp
    rw [splitSlash] at hp
    split at hp
    · rcases List.mem_cons.1 hp with rfl | hp
      · simp
      · exact ih p hp
    · rename_i hc
      cases hs : splitSlash s with
      | nil =>
        rw [hs] at hp
        simp at hp
        subst hp
        simpa using fun h => hc h.symm
      | cons l ls =>
        rw [hs] at hp ih
        rcases List.mem_cons.1 hp with rfl | hp
        · simp only [List.mem_cons, not_or]
          exact ⟨fun h => hc h.symm, ih l (by simp)⟩
        · exact ih p (by simp [hp])

theorem Path.parent_join_name (p : Path) {s : Str} (h : '/' ∉ s) (h1 : s ≠ []) (h2 : s ≠ ['.']) :
    (p.join s).parent = p ∧ (p.join s).name = s := by
  rw [p.join_component h, if_neg (by simp [h1, h2])]
  simp [Path.parent, Path.name]

end Sigstore
