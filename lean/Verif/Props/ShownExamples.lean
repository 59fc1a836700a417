import Verif.Props.Shown

/-!
# C120: a concrete command line with a token in the environment
-/

namespace Sigstore.Props

open Sigstore.Cli Sigstore.Spec Sigstore.Args

/-- a token in the environment -/
def exTokenEnviron : Environ := fun x => if x = "SIGSTORE_IDENTITY_TOKEN".toList then some "ey.J0.x_-".toList else none

/-- `sigstore sign -v file` with it -/
def exVerboseSign : CommandLine := ⟨[], [], .sign, [⟨"-v".toList, none⟩], ["file".toList]⟩

/-- the log line -/
example : (parseArgs exTokenEnviron exVerboseSign).toOption.map (fun ns => startLog id (fun _ => true) none .sign ns |>.toOption.map
      (fun l => l.map fun t => decide ("identity_token='ey.J0.x_-'".toList <:+: t))) = some (some [true]) := by
  decide +kernel

/-- the hypotheses of `C120_logged` -/
example : (∃ ns, parseArgs exTokenEnviron exVerboseSign = .ok ns) ∧
    TextValue exTokenEnviron exVerboseSign.sub ["--identity-token"] (some "SIGSTORE_IDENTITY_TOKEN") none (some "ey.J0.x_-".toList) ∧
    PlainText "ey.J0.x_-".toList ∧ DebugAskedFor id none exVerboseSign ∧ importLevel id none = .ok 20 := by
  refine ⟨⟨_, rfl⟩, .environment ?_ rfl rfl, ?_, .inl (by decide), rfl⟩
  · unfold Occurs
    decide
  · unfold PlainText
    decide

/-- without `-v` nothing is logged -/
example : (parseArgs exTokenEnviron { exVerboseSign with sub := [] }).toOption.map
    (fun ns => (startLog id (fun _ => true) none .sign ns).toOption) = some (some []) := by
  decide +kernel

/-- `EnvironOk` of this environment, and its help -/
example : EnvironOk exTokenEnviron ∧ (["--identity-token".toList], "(default: ey.J0.x_-)".toList) ∈ helpDefaults exTokenEnviron signOptions := by
  refine ⟨(environOk_iff _).1 rfl, by decide +kernel⟩

/-- quotes, backslashes and control characters are escaped as by `repr` -/
example : reprText (fun _ => false) ['i', 't', '\'', 's'] = ['"', 'i', 't', '\'', 's', '"'] ∧
    reprText (fun _ => false) ['\'', '"', '\n', '\\', 'é', '\x00'] = "'\\'\"\\n\\\\\\xe9\\x00'".toList := by
  decide +kernel

end Sigstore.Props
