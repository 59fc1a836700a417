import Verif.Props.SignReport
import Verif.Props.CliSignExamples

/-!
# What signing announces: concrete runs
-/

namespace Sigstore.Props

open Sigstore.Trust Sigstore.Dsse Sigstore.Signing Sigstore.Cli Sigstore.Spec

/-- the index at which the log of the examples puts its entries -/
def exIndex : Int := (exLogged "hashedrekord".toList "0.0.1".toList).logIndex

/-- `sigstore sign a b` -/
def exAnnounced := signMainSaid exSignLibs (exOracle exTurns) exTrust exIdent exSignArgs
    (exSignState [(exPath "a", 1), (exPath "b", 2)])

/-- what it writes when all is well -/
theorem exAnnounced_said : exAnnounced.1 = some (.ok ()) ∧ exAnnounced.2.2 =
    ([CertificateHeader, .out (pemText exSigner.der)], [(0, EntryRecord exIndex), (1, EntryRecord exIndex)],
      [.out "Sigstore bundle written to a.sigstore.json".toList, .out "Sigstore bundle written to b.sigstore.json".toList]) := by
  decide +kernel

theorem exAnnounced_apart : SignOutputsApart exSignLibs.disk exSignArgs := by
  have hout : ∀ f p, SignOutput exSignArgs f p → p = f.parent.join (f.name ++ ".sigstore.json".toList) := by
    intro f p hp
    cases hp with
    | signature h => cases h
    | certificate h => cases h
    | bundle h => cases h
    | inDirectory _ _ h => cases h
    | beside => rfl
  refine ⟨?_, (by intro p q h; cases h), (by rintro f _ p q (h | h) <;> cases h)⟩
  intro f hf g hg hfg p q hp hq
  rw [hout f p hp, hout g q hq]
  have hf : f = exPath "a" ∨ f = exPath "b" := by simpa [exSignArgs] using hf
  have hg : g = exPath "a" ∨ g = exPath "b" := by simpa [exSignArgs] using hg
  rcases hf with rfl | rfl <;> rcases hg with rfl | rfl
  · exact absurd rfl hfg
  · decide
  · decide
  · exact absurd rfl hfg

/-- it is a case of C108 -/
example : ∃ cert, [CertificateHeader, .out (pemText exSigner.der)] = [CertificateHeader, .out (pemText cert.der)] ∧
      ∀ i f, (Mentioned exSignArgs.files)[i]? = some f → ∃ content b,
        BundleOf exSignCrypto exKeys exSignLibs.codec 0 cert none f.name content b ∧
        OutputsHold exSignLibs exSignArgs exAnnounced.2.1.disk f cert b ∧
        RecordsOf i [(0, EntryRecord exIndex), (1, EntryRecord exIndex)] = [EntryRecord b.entry.logIndex] := by
  obtain ⟨cert, h1, _, h3⟩ := C108_sign_announced_partial exSignLibs (exOracle exTurns) exTrust exIdent exSignArgs
    (exSignState [(exPath "a", 1), (exPath "b", 2)]) exAnnounced.2.1 _ _ _ exAnnounced_apart (.inl rfl)
    (Prod.ext exAnnounced_said.1 (Prod.ext rfl exAnnounced_said.2))
  refine ⟨cert, h1, ?_⟩
  intro i f hf
  obtain ⟨content, b, _, g2, g3, g4⟩ := h3 i f hf
  exact ⟨content, b, g2, g3, g4⟩

/-- `sigstore attest` of `a` and `b` -/
example : (attestMainSaid exSignLibs (exOracle exTurns) exTrust exIdent exAttestArgs exAttestState).2.2 =
    ([CertificateHeader, .out (pemText exSigner.der)], [(0, EntryRecord exIndex), (1, EntryRecord exIndex)],
      [.out "Sigstore bundle written to a.sigstore.json".toList, .out "Sigstore bundle written to b.sigstore.json".toList]) := by
  decide +kernel

theorem exSame_said : (signMainSaid exSignLibs (exOracle exSequential) exTrust exIdent exSameArgs exSameState).2.2.2.2 =
    [.out "Sigstore bundle written to out/a.sigstore.json".toList, .out "Sigstore bundle written to out/a.sigstore.json".toList] := by
  decide +kernel

/-- **C108** An announced bundle may be lost: `sign --output-directory out d/a e/a` can succeed and announce for the first input a
path that does not hold a bundle for it (the line is printed twice, and the second bundle replaced the first). -/
theorem C108_announced_lost : ∃ (libs : SignLibs) (o : SignOracle) (trust : TrustArgs) (ident : IdentityArgs) (args : SignArgs)
    (s s' : SignState) (before after : List Said) (records : List (Nat × Said)),
    signMainSaid libs o trust ident args s = (some (.ok ()), s', before, records, after) ∧
      ∃ f ∈ args.files, ∃ content p, s.disk (libs.disk.resolve f) = some (.file content) ∧ SignBundlePath args f p ∧
        .out ("Sigstore bundle written to ".toList ++ Path.str p) ∈ after ∧
        ∀ k cert b, BundleOf libs.env.crypto libs.kp libs.codec k cert none f.name content b →
          ¬HoldsBundle libs.disk libs.toJson s'.disk b p := by
  have hr := signMainSaid_refines exSignLibs (exOracle exSequential) exTrust exIdent exSameArgs exSameState
  have h1 := exSame.1
  have h2 := exSame.2
  rw [hr] at h1 h2
  refine ⟨exSignLibs, exOracle exSequential, exTrust, exIdent, exSameArgs, exSameState, _, _, _, _, Prod.ext h1 rfl,
    ⟨false, ["d".toList, "a".toList]⟩, List.mem_cons_self, [1], ⟨false, ["out".toList, "a.sigstore.json".toList]⟩, by decide,
    SignBundlePath.inDirectory (args := exSameArgs) (file := ⟨false, ["d".toList, "a".toList]⟩) (dir := exPath "out") rfl rfl rfl, ?_, ?_⟩
  · show _ ∈ (signMainSaid exSignLibs (exOracle exSequential) exTrust exIdent exSameArgs exSameState).2.2.2.2
    rw [exSame_said]
    exact List.mem_cons_self
  · intro k cert b hb hh
    have h3 : (signMainSaid exSignLibs (exOracle exSequential) exTrust exIdent exSameArgs exSameState).2.1.disk
      ⟨false, ["out".toList, "a.sigstore.json".toList]⟩ = _ := hh
    rw [exToJson_artifact hb] at h3
    rw [h2] at h3
    revert h3
    decide

/-- the log refuses the second file -/
def exRefused : SignOracle :=
  { exOracle exTurns with
    perFile := fun f => if f = exPath "b" then ({ exAnswers 1500000000 with rekor := fun _ => .error .rekorClient }, exAnswers 1500000000)
      else (exAnswers 1500000000, exAnswers 1500000000) }

/-- **C108** On failure nothing is said about outputs that were written nevertheless: `sign a b` where the log refuses the entry
of `b` fails, and `a.sigstore.json` holds a complete bundle that no line mentions. -/
theorem C108_unannounced : ∃ (libs : SignLibs) (o : SignOracle) (trust : TrustArgs) (ident : IdentityArgs) (args : SignArgs)
    (s : SignState), (∃ e, (signMainSaid libs o trust ident args s).1 = some (.error e)) ∧
      (signMainSaid libs o trust ident args s).2.2.2.2 = [] ∧
      ∃ f ∈ args.files, ∃ p, SignBundlePath args f p ∧ s.disk (libs.disk.resolve p) = none ∧
        ∃ data, (signMainSaid libs o trust ident args s).2.1.disk (libs.disk.resolve p) = some (.file data) ∧
          (signMainSaid libs (exOracle exTurns) trust ident args s).2.1.disk (libs.disk.resolve p) = some (.file data) ∧
          (signMainSaid libs (exOracle exTurns) trust ident args s).1 = some (.ok ()) :=
  ⟨exSignLibs, exRefused, exTrust, exIdent, exSignArgs, exSignState [(exPath "a", 1), (exPath "b", 2)],
    ⟨.rekorClient, by decide +kernel⟩, by decide +kernel, exPath "a", by decide, exPath "a.sigstore.json", .beside rfl rfl rfl,
    by decide, [1, 10], by decide +kernel, by decide +kernel, exAnnounced_said.1⟩

end Sigstore.Props
