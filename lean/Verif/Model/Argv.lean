import Verif.Model.CliMain

/-!
# Model of how the argument vector is split into options, commands and arguments

`main` hands the words to `argparse` (`/repo/sigstore/_cli.py:627-631`) with the parsers of `_parser`
(`/repo/sigstore/_cli.py:239-624`).  The algorithm is that of `argparse.ArgumentParser._parse_known_args` of Python 3.11,
which works on one parser at a time: it first decides for every word whether it is an option, and then consumes options and
positional arguments alternately.  The rest of a command line from the name of a command on is given to the parser of that
command.  `negative` stands for the regular expression for negative numbers.  Simplification: the conversions of values by
`type` and `choices` happen afterwards, in `dispatch`, with the same status 2; so a line with a wrong value and, after
it, a request for help is one for help here.
-/

namespace Sigstore.Cli

/-! ## Words -/

/-- `--` -/
def dashDash : Str := ['-', '-']

/-- what a word is: `A`, `-` or `O` in the pattern of argparse.  An option comes with the name it stands for, and with the
text that is joined to it; the flag says whether that is by `=`. -/
inductive Mark where
  | arg
  | dashes
  | option (known : Option Opt) (name : Str) (explicit : Option (Bool × Str))
deriving DecidableEq, Repr

/-- `self._option_string_actions` -/
def optionNames (opts : List Opt) : List Str := opts.flatMap Opt.names

/-- `self._option_string_actions[name]` -/
def findOpt (opts : List Opt) (name : Str) : Option Opt := opts.find? fun o => decide (name ∈ o.names)

/-- `word.partition("=")` -/
def partitionEq (w : Str) : Str × Option Str :=
  match w with
  | [] => ([], none)
  | c :: cs =>
    if c = '=' then ([], some cs)
    else
      match partitionEq cs with
      | (l, r) => (c :: l, r)

/-- `_get_option_tuples`: the names that a word may stand for -/
def optionTuples (opts : List Opt) (w : Str) : List (Str × Option (Bool × Str)) :=
  match w with
  | '-' :: '-' :: _ =>
    match partitionEq w with
    | (l, r) => ((optionNames opts).filter fun n => l.isPrefixOf n).map fun n => (n, r.map fun v => (true, v))
  | '-' :: c :: cs =>
    (optionNames opts).filterMap fun n =>
      if n = ['-', c] then some (n, some (false, cs))
      else if w.isPrefixOf n then some (n, none)
      else none
  | _ => []

/-- `_parse_optional` -/
def parseOptional (negative : Str → Bool) (opts : List Opt) (w : Str) : Py Mark :=
  match w with
  | [] => .ok .arg
  | c :: cs =>
    if c ≠ '-' then .ok .arg
    else if w ∈ optionNames opts then .ok (.option (findOpt opts w) w none)
    else if cs = [] then .ok .arg
    else
      let tuples :=
        match optionTuples opts w with
        | [] =>
          if negative w || w.contains ' ' then .ok .arg else .ok (.option none w none)
        | [(n, e)] => .ok (.option (findOpt opts n) n e)
        | _ :: _ :: _ => .error (.systemExit 2)
      match partitionEq w with
      | (l, some v) => if l ∈ optionNames opts then .ok (.option (findOpt opts l) l (some (true, v))) else tuples
      | (_, none) => tuples

/-- the words after `--` are arguments -/
def afterDashes : List Str → List (Str × Mark)
  | [] => []
  | w :: ws => (w, .arg) :: afterDashes ws

/-- the first pass of `_parse_known_args` -/
def marks (negative : Str → Bool) (opts : List Opt) : List Str → Py (List (Str × Mark))
  | [] => .ok []
  | w :: ws =>
    if w = dashDash then .ok ((w, .dashes) :: afterDashes ws)
    else
      match parseOptional negative opts w with
      | .error e => .error e
      | .ok m =>
        match marks negative opts ws with
        | .error e => .error e
        | .ok ms => .ok ((w, m) :: ms)

/-! ## Options -/

/-- what becomes of an option with text joined to it: complete occurrences, and whether the rest is unknown, or occurrences
and an option that may take the next word -/
inductive Cluster where
  | closed (occs : List Occ) (extra : Bool)
  | opened (occs : List Occ) (o : Opt) (name : Str)
deriving DecidableEq, Repr

/-- an option with a single dash -/
def shortName (name : Str) : Bool :=
  match name with
  | _ :: c :: _ => decide (c ≠ '-')
  | _ => false

/-- `consume_optional` for an option with text joined to it.  An option that takes no value, but has one, is rejected by
`takeOcc`, before any option in the same word has an effect. -/
def cluster (opts : List Opt) (occs : List Occ) (o : Opt) (name : Str) (sep : Bool) : Str → Cluster
  | [] => if o.action = .store then .closed (occs ++ [⟨name, some []⟩]) false else .closed [⟨name, some []⟩] false
  | c :: cs =>
    if o.action = .store then .closed (occs ++ [⟨name, some (c :: cs)⟩]) false
    else if shortName name = false then .closed [⟨name, some (c :: cs)⟩] false
    else if sep || decide (c = '-') then .closed [⟨name, some (c :: cs)⟩] false
    else
      match findOpt opts ['-', c] with
      | none => .closed (occs ++ [⟨name, none⟩]) true
      | some o' =>
        match cs with
        | [] => .opened (occs ++ [⟨name, none⟩]) o' ['-', c]
        | '=' :: cs => cluster opts (occs ++ [⟨name, none⟩]) o' ['-', c] true cs
        | c' :: cs => cluster opts (occs ++ [⟨name, none⟩]) o' ['-', c] false (c' :: cs)

/-! ## Levels -/

/-- the positional arguments of a parser: none, one, one or more (`nargs="+"`), or a command -/
inductive Positional where
  | none
  | one
  | many
  | command
deriving DecidableEq, Repr

/-- whether the positional arguments are still to come, are being taken, or are taken -/
inductive Phase where
  | fresh
  | taking
  | done
deriving DecidableEq, Repr

/-- an option ends the positional arguments -/
def Phase.stop : Phase → Phase
  | .fresh => .fresh
  | _ => .done

/-- the words of one parser: the options, what the positional argument takes, and whether anything is left over -/
structure Split where
  occs : List Occ
  args : List Str
  extras : Bool
deriving DecidableEq, Repr

/-- options that precede -/
def Split.add (s : Split) (occs : List Occ) (extra : Bool) : Split := ⟨occs ++ s.occs, s.args, extra || s.extras⟩

/-- an argument that precedes -/
def Split.addArg (s : Split) (w : Str) : Split := ⟨s.occs, w :: s.args, s.extras⟩

/-- a word that is left over -/
def Split.extra (s : Split) : Split := ⟨s.occs, s.args, true⟩

/-- the second pass of `_parse_known_args` -/
def consume (opts : List Opt) (kind : Positional) : Phase → List (Str × Mark) → Split
  | _, [] => ⟨[], [], false⟩
  | ph, (_, .option none _ _) :: rest => (consume opts kind ph.stop rest).extra
  | ph, (_, .option (some o) name explicit) :: rest =>
    match (match explicit with
      | none => Cluster.opened [] o name
      | some (sep, text) => cluster opts [] o name sep text) with
    | .closed occs extra => (consume opts kind ph.stop rest).add occs extra
    | .opened occs o name =>
      if o.action = .store then
        match rest with
        | (v, .arg) :: rest => (consume opts kind ph.stop rest).add (occs ++ [⟨name, some v⟩]) false
        | rest => (consume opts kind ph.stop rest).add (occs ++ [⟨name, none⟩]) false
      else (consume opts kind ph.stop rest).add (occs ++ [⟨name, none⟩]) false
  | ph, (w, .arg) :: rest =>
    match kind, ph with
    | .command, _ => ⟨[], w :: rest.map Prod.fst, false⟩
    | .many, .fresh | .many, .taking | .one, .fresh => (consume opts kind .taking rest).addArg w
    | .one, .taking => (consume opts kind .done rest).extra
    | _, ph => (consume opts kind ph rest).extra
  | ph, (w, .dashes) :: rest =>
    match kind, ph with
    | .command, _ => ⟨[], w :: rest.map Prod.fst, false⟩
    | .many, .fresh | .one, .fresh =>
      if rest = [] then ⟨[], [], true⟩ else consume opts kind .fresh rest
    | .many, .taking | .one, .taking => consume opts kind .taking rest
    | _, ph => (consume opts kind ph rest).extra

/-- `_parse_known_args`, up to the actions -/
def splitWords (negative : Str → Bool) (opts : List Opt) (kind : Positional) (words : List Str) : Py Split :=
  match marks negative opts words with
  | .error e => .error e
  | .ok ms => .ok (consume opts kind .fresh ms)

/-! ## The parsers -/

/-- the positional arguments of a command (`_cli.py:180-186,308-316,440-447,571-576`) -/
def Command.kind : Command → Positional
  | .attest | .sign | .verifyIdentity | .verifyGithub => .many
  | .trustInstance => .one
  | _ => .none

/-- the groups of commands -/
inductive Group where
  | verify
  | plumbing
deriving DecidableEq, Repr

/-- `subcommands` (`_cli.py:296,363,450,554,563,577`) -/
def lookupCommand (name : Str) : Option (Command ⊕ Group) :=
  if name = "attest".toList then some (.inl .attest)
  else if name = "sign".toList then some (.inl .sign)
  else if name = "verify".toList then some (.inr .verify)
  else if name = "get-identity-token".toList then some (.inl .getIdentityToken)
  else if name = "trust-instance".toList then some (.inl .trustInstance)
  else if name = "plumbing".toList then some (.inr .plumbing)
  else none

/-- `verify_subcommand` and `plumbing_subcommands` (`_cli.py:464,493,591,616`) -/
def Group.lookup (g : Group) (name : Str) : Option Command :=
  match g with
  | .verify =>
    if name = "identity".toList then some .verifyIdentity
    else if name = "github".toList then some .verifyGithub
    else none
  | .plumbing =>
    if name = "fix-bundle".toList then some .fixBundle
    else if name = "update-trust-root".toList then some .updateTrustRoot
    else none

/-- the parser of a command; `x` tells whether words were left over before -/
def parseCommand (environ : Environ) (negative : Str → Bool) (top middle : List Occ) (outer : Namespace) (x : Bool)
    (c : Command) (words : List Str) : Py (CommandLine × Namespace) :=
  match splitWords negative c.options c.kind words with
  | .error e => .error e
  | .ok s =>
    match parseLevel environ c.options [] s.occs with
    | .error e => .error e
    | .ok (sub, z) =>
      if x || s.extras || z || !c.arity s.args then .error (.systemExit 2)
      else .ok (⟨top, middle, c, s.occs, s.args⟩, sub.over outer)

/-- `_parser().parse_args(args)` (`_cli.py:630-631`).  A missing command is reported after the options, an unknown one when it
is met. -/
def parseArgv (environ : Environ) (negative : Str → Bool) (argv : List Str) : Py (CommandLine × Namespace) :=
  match buildParsers environ commands with
  | .error e => .error e
  | .ok () =>
    match splitWords negative mainOptions .command argv with
    | .error e => .error e
    | .ok s =>
      match parseLevel environ mainOptions exclusiveGroup s.occs with
      | .error e => .error e
      | .ok (top, x) =>
        match s.args with
        | [] => .error (.systemExit 2)
        | name :: words =>
          match lookupCommand name with
          | none => .error (.systemExit 2)
          | some (.inl c) => parseCommand environ negative s.occs [] top (s.extras || x) c words
          | some (.inr g) =>
            match splitWords negative commonOptions .command words with
            | .error e => .error e
            | .ok m =>
              match parseLevel environ commonOptions [] m.occs with
              | .error e => .error e
              | .ok (middle, y) =>
                match m.args with
                | [] => .error (.systemExit 2)
                | name :: words =>
                  match g.lookup name with
                  | none => .error (.systemExit 2)
                  | some c =>
                    parseCommand environ negative s.occs m.occs (middle.over top) (s.extras || x || m.extras || y) c words

/-- `main(args)` (`_cli.py:627-667`): no arguments means those of the process -/
def mainArgv (libs : MainLibs) (o : SignOracle) (environ : Environ) (negative : Str → Bool) (processArgs args : List Str)
    (s : MainState) : Option (Py Unit) × MainState :=
  match parseArgv environ negative (if args = [] then processArgs else args) with
  | .error e => (some (.error e), s)
  | .ok (line, ns) => dispatch libs o ns line s

end Sigstore.Cli
