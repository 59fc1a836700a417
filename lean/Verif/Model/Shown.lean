import Verif.Model.Args
import Verif.Model.CliReport
import Verif.Prelude.Hex

/-!
# Model of what the command line tool shows of its options
(`/repo/sigstore/_cli.py:64-71, 239-639`)

`main` logs the parsed arguments at level `DEBUG`, and `--help` shows the defaults of options: all parsers have the formatter
`argparse.ArgumentDefaultsHelpFormatter`.  The library functions follow CPython 3.11.
-/

namespace Sigstore.Cli

/-- the last `n` hexadecimal digits of a number -/
def hexDigits : Nat → Nat → Str
  | 0, _ => []
  | n + 1, x => hexDigits n (x / 16) ++ [hexDigit (x % 16)]

/-- one character in `repr(s)`; `printable` is `str.isprintable` -/
def reprChar (printable : Char → Bool) (quote c : Char) : Str :=
  if c = quote ∨ c = '\\' then ['\\', c]
  else if c = '\t' then "\\t".toList
  else if c = '\n' then "\\n".toList
  else if c = '\r' then "\\r".toList
  else if c.toNat < 32 ∨ c.toNat = 127 then "\\x".toList ++ hexDigits 2 c.toNat
  else if c.toNat < 127 ∨ printable c then [c]
  else if c.toNat ≤ 0xff then "\\x".toList ++ hexDigits 2 c.toNat
  else if c.toNat ≤ 0xffff then "\\u".toList ++ hexDigits 4 c.toNat
  else "\\U".toList ++ hexDigits 8 c.toNat

/-- `repr(s)` of a `str` -/
def reprText (printable : Char → Bool) (s : Str) : Str :=
  let quote := if '\'' ∈ s ∧ '"' ∉ s then '"' else '\''
  quote :: (s.flatMap (reprChar printable quote) ++ [quote])

/-- `repr` of a value of a namespace.  Values with `type=Path` are shown as texts here. -/
def reprVal (printable : Char → Bool) : Val → Str
  | .null => "None".toList
  | .text s => reprText printable s
  | .flag b => if b then "True".toList else "False".toList
  | .count n => (toString n).toList

/-- the attributes of the namespace of a command.  The names of the subcommands and the positional arguments are left out. -/
def attributes (c : Command) : List Str := ((mainOptions ++ c.options).map Opt.dest).dedup

/-- `f"parsed arguments {args}"` (`_cli.py:639`): `argparse.Namespace.__repr__`.  The attributes are in the order of the tables. -/
def parsedArguments (printable : Char → Bool) (c : Command) (ns : Namespace) : Str :=
  "parsed arguments Namespace(".toList ++
    (", ".toList).intercalate ((attributes c).filterMap fun d => (ns d).map fun v => d ++ '=' :: reprVal printable v) ++
    ")".toList

/-- what `main` logs before it does anything else (`_cli.py:71, 633-639`) -/
def startLog (upper : Str → Str) (printable : Char → Bool) (loglevel : Option Str) (c : Command) (ns : Namespace) :
    Py (List Str) :=
  match importLevel upper loglevel with
  | .error e => .error e
  | .ok level => .ok (if 10 ≥ effectiveLevel level ns.verbosity then [parsedArguments printable c ns] else [])

/-- `str` of the default of an option -/
def strVal : Val → Str
  | .text s => s
  | .null => "None".toList
  | .flag b => if b then "True".toList else "False".toList
  | .count n => (toString n).toList

/-- What `--help` says about the defaults of the options of a parser (`ArgumentDefaultsHelpFormatter._get_help_string`), by option;
before lines are filled. -/
def helpDefaults (environ : Environ) (opts : List Opt) : List (List Str × Str) :=
  opts.filterMap fun o =>
    match evalDefault environ o.default with
    | .ok (some v) => some (o.names, "(default: ".toList ++ strVal v ++ ")".toList)
    | _ => none

end Sigstore.Cli
