import Verif.Spec.Args

/-!
# Specification of the argument vector: which words are a command line

Nothing here mentions the algorithm of argparse.  `negative` tells which words are negative numbers.
-/

namespace Sigstore.Spec

open Sigstore.Cli

/-! ## Words -/

/-- the options with a value, those without one, and those that ask for help, at one place of the command line -/
structure Vocabulary where
  values : List String
  flags : List String
  help : List String

/-- all names -/
def Vocabulary.names (v : Vocabulary) : List Str := (v.values ++ v.flags ++ v.help).map String.toList

/-- before the command -/
def vocabularyTop : Vocabulary := ⟨documentedTop.values, documentedTop.flags, ["-h", "--help", "-V", "--version"]⟩

/-- between `verify` or `plumbing` and its subcommand -/
def vocabularyMiddle : Vocabulary := ⟨documentedMiddle.values, documentedMiddle.flags, ["-h", "--help"]⟩

/-- after the command -/
def vocabulary (c : Command) : Vocabulary := ⟨(documented c).values, (documented c).flags, ["-h", "--help"]⟩

/-- a word is the name of an option, or the beginning of the name of exactly one -/
def Vocabulary.Names (v : Vocabulary) (w n : Str) : Prop :=
  n ∈ v.names ∧ (w = n ∨ (w ∉ v.names ∧ "--".toList <+: w ∧ w <+: n ∧ ∀ m ∈ v.names, w <+: m → m = n))

/-- the part of a word before the first `=`, the whole word if there is none -/
def beforeEq (w : Str) : Str := w.takeWhile fun c => decide (c ≠ '=')

/-- a word (up to `=`) that is the beginning of several names, and none of them -/
def Vocabulary.Ambiguous (v : Vocabulary) (w : Str) : Prop :=
  "--".toList <+: w ∧ beforeEq w ∉ v.names ∧ ∃ m ∈ v.names, ∃ n ∈ v.names, m ≠ n ∧ beforeEq w <+: m ∧ beforeEq w <+: n

/-- a word that is not taken for an option: it does not begin with `-`, or is just that, or is a negative number or has a space
and is unlike all options -/
def Vocabulary.Plain (negative : Str → Bool) (v : Vocabulary) (w : Str) : Prop :=
  w ≠ "--".toList ∧
  (w.head? ≠ some '-' ∨ w = "-".toList ∨
    ((negative w = true ∨ ' ' ∈ w) ∧ (∀ n ∈ v.names, n ≠ w.take 2) ∧
      ("--".toList <+: w → ∀ n ∈ v.names, ¬ beforeEq w <+: n)))

/-! ## Sequences of words -/

/-- the words of a sequence of options: `--flag`, `--option value`, `--option=value` and `-vv…` -/
inductive OptionWords (negative : Str → Bool) (v : Vocabulary) : List Str → List Occ → Prop
  | nil : OptionWords negative v [] []
  | flag {w n : Str} {ws : List Str} {os : List Occ} : v.Names w n → n ∈ v.flags.map String.toList →
      OptionWords negative v ws os → OptionWords negative v (w :: ws) (⟨n, none⟩ :: os)
  | value {w n x : Str} {ws : List Str} {os : List Occ} : v.Names w n → n ∈ v.values.map String.toList →
      v.Plain negative x → OptionWords negative v ws os → OptionWords negative v (w :: x :: ws) (⟨n, some x⟩ :: os)
  | joined {w n x : Str} {ws : List Str} {os : List Occ} : v.Names w n → n ∈ v.values.map String.toList →
      OptionWords negative v ws os → OptionWords negative v ((w ++ '=' :: x) :: ws) (⟨n, some x⟩ :: os)
  | verbose {k : Nat} {ws : List Str} {os : List Occ} : OptionWords negative v ws os →
      OptionWords negative v (('-' :: List.replicate (k + 2) 'v') :: ws) (List.replicate (k + 2) ⟨"-v".toList, none⟩ ++ os)

/-- the words after a command: the positional arguments are together, and `--` makes arguments of all words after it -/
inductive CommandWords (negative : Str → Bool) (v : Vocabulary) : List Str → List Occ → List Str → Prop
  | plain {w₁ w₂ ps : List Str} {o₁ o₂ : List Occ} : OptionWords negative v w₁ o₁ → (∀ p ∈ ps, v.Plain negative p) →
      OptionWords negative v w₂ o₂ → CommandWords negative v (w₁ ++ (ps ++ w₂)) (o₁ ++ o₂) ps
  | dashes {w₁ ps qs : List Str} {o₁ : List Occ} : OptionWords negative v w₁ o₁ → (∀ p ∈ ps, v.Plain negative p) →
      ps ++ qs ≠ [] → CommandWords negative v (w₁ ++ (ps ++ "--".toList :: qs)) o₁ (ps ++ qs)

/-- the words before `--` -/
def beforeDashes (ws : List Str) : List Str := ws.takeWhile fun w => decide (w ≠ "--".toList)

/-- no word before `--` is ambiguous -/
def Vocabulary.Clear (v : Vocabulary) (ws : List Str) : Prop := ∀ w ∈ beforeDashes ws, ¬ v.Ambiguous w

/-- the name of a command, and that of its group -/
def commandName : Command → Option String × String
  | .attest => (none, "attest")
  | .sign => (none, "sign")
  | .verifyIdentity => (some "verify", "identity")
  | .verifyGithub => (some "verify", "github")
  | .getIdentityToken => (none, "get-identity-token")
  | .trustInstance => (none, "trust-instance")
  | .fixBundle => (some "plumbing", "fix-bundle")
  | .updateTrustRoot => (some "plumbing", "update-trust-root")

/-- the words of a command line.  The words after the name of a command or group must not be ambiguous before it either. -/
inductive Writes (negative : Str → Bool) : List Str → CommandLine → Prop
  | direct {line : CommandLine} {ws sub : List Str} {name : String} : commandName line.command = (none, name) →
      OptionWords negative vocabularyTop ws line.top → line.middle = [] →
      CommandWords negative (vocabulary line.command) sub line.sub line.positional →
      vocabularyTop.Clear sub → Writes negative (ws ++ name.toList :: sub) line
  | nested {line : CommandLine} {ws ms sub : List Str} {group name : String} : commandName line.command = (some group, name) →
      OptionWords negative vocabularyTop ws line.top → OptionWords negative vocabularyMiddle ms line.middle →
      CommandWords negative (vocabulary line.command) sub line.sub line.positional →
      vocabularyTop.Clear (ms ++ name.toList :: sub) → vocabularyMiddle.Clear sub →
      Writes negative (ws ++ group.toList :: (ms ++ name.toList :: sub)) line

/-- a word that asks for the help or the version: `--help`, `--version` or an abbreviation, or letters after one dash with one of
`h` and `V` among them -/
def HelpWord (w : Str) : Prop :=
  ("--".toList <+: beforeEq w ∧ beforeEq w ≠ "--".toList ∧ ∃ n ∈ ["--help", "--version"], beforeEq w <+: n.toList) ∨
  ∃ t, w = '-' :: t ∧ t.head? ≠ some '-' ∧ ('h' ∈ t ∨ 'V' ∈ t)

/-! ## A way to write every command line -/

/-- an option, with its value joined by `=` -/
def writeOcc (o : Occ) : Str :=
  match o.value with
  | none => o.name
  | some v => o.name ++ '=' :: v

/-- a command line written with full names, values joined by `=`, and `--` before the positional arguments, if any -/
def writeLine (line : CommandLine) : List Str :=
  let rest := line.sub.map writeOcc ++ (if line.positional = [] then [] else "--".toList :: line.positional)
  match commandName line.command with
  | (none, name) => line.top.map writeOcc ++ name.toList :: rest
  | (some group, name) => line.top.map writeOcc ++ group.toList :: (line.middle.map writeOcc ++ name.toList :: rest)

end Sigstore.Spec
