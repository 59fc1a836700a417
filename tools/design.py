"""Rewrites the section "Property by property" of DESIGN.md from properties.jsonl, claims.py and the texts below."""
import json, os, re
from claims import CLAIMS

ROOT = os.path.dirname(os.path.dirname(os.path.abspath(__file__)))

# id -> (what is modelled and specified, how it is proved)
HOW = {
"C01": ("`Model.Merkle` (`_decomp_inclusion_proof`, `_chain_inner`, `_chain_border_right`, `verify_merkle_inclusion` with the bit operations of the code); `Spec.Rfc6962` defines MTH and PATH by recursion on the largest power of two", "induction along the RFC recursion, with lemmas on `bit_length`, shifts and the inner/border decomposition"),
"C02": ("as C01", "induction on the tree; the hash is injective on the finite set of strings that occur"),
"C03": ("as C01", "the number of hashes consumed equals the length of the RFC path"),
"C04": ("`Model.LogEntry`, `Model.Merkle`, `Model.Checkpoint`", "counterexample entry accepted outside the tree; the partial theorem is a corollary of C01–C03"),
"C05": ("`Model.Checkpoint`: parser of notes and checkpoints, regular expression, lenient base64 (`Prelude.Base64`)", "case analysis of every step, as an iff"),
"C06": ("as C05", "texts that raise `ValueError`, `binascii.Error` (refutation); classification of all failures"),
"C07": ("as C05; `Spec.SignedNote` writes notes", "round trip through the parser by list lemmas on separators and lines"),
"C08": ("`Model.LogEntry.encodeCanonical`; `Spec.Canonical` writes the RFC 8785 text", "equality of texts, then injectivity by parsing quoted members and numerals from the front"),
"C09": ("`Model.Verifier.logTime`, `Model.LogEntry.verifySet`", "case analysis of the time sources and of entry verification"),
"C10": ("`Model.Trust`: `Keyring`, `Key.verify`", "induction over the candidate keys, iff with “some key accepts”"),
"C11": ("`Model.Trust`: `Key.__init__` for every key detail", "iff by cases over the details and the loaded key"),
"C12": ("`Model.Trust`: `is_timerange_valid` and its uses for keys and authorities", "list lemmas on `filter`, with both ends of the interval"),
"C13": ("`Model.Verifier`: the whole of `verify_artifact`; `Spec.Verification` states what an accepted artifact is", "each step as an iff, composed"),
"C14": ("as C13 for `verify_dsse`", "as C13"),
"C15": ("`Model.Verifier.checkWindow`, `verifyChains`", "induction over the verified times"),
"C16": ("`Model.Verifier.verifySignedTimestamp` over the list of authorities", "induction over authorities and timestamps, iff with `Spec.TrustedTsr`"),
"C17": ("as C16", "induction; permutations of the list of timestamps"),
"C18": ("`Model.Verifier.checkArtifact`, `checkDsse`", "kind and version of the entry exclude each other"),
"C19": ("all of `Model.Verifier`", "refuted by concrete bundles; conditions under which only `VerificationError` occurs, by cases per function.  C104 gives the exact list"),
"C20": ("`Model.Verifier`", "two acceptances give equal digests and equal hashed inputs"),
"C21": ("`Model.Policy`: policy trees", "structural induction"),
"C22": ("`Model.Policy.verifyIdentity`", "iff, with the SAN kinds spelled out in the specification"),
"C23": ("`Model.Policy.verifyExt` with the DER reader of `Prelude.Der`", "table of classes; iff with the encoded extension, by the DER round trip"),
"C24": ("`Model.Policy.verifyAny`", "counterexample; induction for children that raise only `VerificationError`"),
"C25": ("`Model.CliVerify.githubPolicy`", "the list of children always contains the issuer policy"),
"C26": ("`Model.Sct.packDigitallySigned`; `Spec.Rfc6962Sct` encodes the TLS structure", "equality with the encoder; injectivity by reading length prefixes"),
"C27": ("`Model.Sct.verifySct`", "iff with the specification"),
"C28": ("`Model.Sct.sctCertIsCa`, `Model.CertUtils.certIsCa`", "counterexample chain; what is left is proved"),
"C29": ("`Prelude.Float64`, `Model.Sct.sctMillis`", "exact integer bounds on both roundings for each binade between 2004 and 2038; counterexample in 2038"),
"C30": ("`Model.CertUtils`", "cases over versions and extension states"),
"C31": ("`Model.Bundle.init`", "iff with the requirements of each bundle version"),
"C32": ("`Model.Bundle`: `_to_parts`, `_from_parts`", "counterexample with timestamps; equality otherwise"),
"C33": ("`Model.Dsse.pae`, `Prelude.Utf8`", "reading decimal lengths and prefixes from the front"),
"C34": ("`Model.Dsse`: `_sign`, `_verify`", "computation, given that the scheme accepts what it signed"),
"C35": ("`Model.Signer` as a state machine over arbitrary answers of the services", "invariant by induction over the calls"),
"C36": ("as C35", "refuted for every call of a `Signer` without a cache; invariant for the others"),
"C37": ("`Model.Signer` with the timestamp client", "cases; list induction over the authorities"),
"C38": ("`Model.Signer` composed with `Model.Verifier`; honest services in `Spec.Honest` and `Spec.Rekor`", "uses C01, C07, C10, C13, C14, C27, C29, C52; a world meeting all hypotheses in `Props.EndToEndExamples`"),
"C39": ("`Model.SigningConfig`; the selection in declarative form", "invariants of the grouping fold; iff for success and for failure"),
"C40": ("`Model.Oidc`: `IdentityToken.__init__`", "iff over the claims"),
"C41": ("`Model.OAuth`: redirect server and main thread as two automata", "invariants over all interleavings; a schedule with the race refutes the out-of-band flow"),
"C42": ("`Model.CliSign`: output maps and threads on a disk", "invariant over the loop and over all schedules"),
"C43": ("as C42: every thread may be interrupted at each read, call and written byte", "invariant over an arbitrary schedule; a run with an output that is an input refutes the general claim"),
"C44": ("`Model.CliVerify`; `Spec.CliVerify` states what the command line demands", "iff of the whole command with the specification; `Lemmas.NoExit` shows that nothing exits with 0 early"),
"C45": ("`Model.CliVerify.fileOrDigest`", "exact description of the accepted texts; refutations for separators and blanks"),
"C46": ("`Model.CliSign.attestOutputsLoop`", "counterexample; invariant for different outputs"),
"C47": ("`Model.Tuf`: directories of a URL; `Model.Url.quote`", "injectivity of percent-encoding byte by byte; witnesses for the three exceptional URLs"),
"C48": ("`Model.Tuf`: `TrustUpdater`", "cases over the modes; a trace of network calls is empty offline"),
"C49": ("`Model.RekorClient`", "minimum of a fold; refuted for error statuses"),
"C50": ("`Model.RekorClient`", "complete case table; refuted for index 0"),
"C51": ("`Model.Hashing`: `sha256_digest` by chunks", "induction over the chunks"),
"C52": ("`Model.KeyDetails`", "cases over keys and details"),
"C53": ("`Model.Dsse.matchesDigest` and the loop of the command", "iff over subjects and digests"),
"C54": ("`Prelude.Hex`, `Prelude.Base64`, `Prelude.Decimal`", "round trips and injectivity by induction"),
"C55": ("`Model.RekorRequest`, `Model.Verifier`; `Spec.Rekor` states what a log records", "iff between recorded bodies and validated bodies"),
"C56": ("`Model.RekorClient`: thread-local sessions", "invariant over arbitrary schedules"),
"C57": ("`Model.LogEntry.verify`", "iff composed of C02, C05, C08, C10"),
"C58": ("`Model.CliTrust`", "case table over the options, iff"),
"C59": ("`Model.Trust`", "counterexample key; partial for the family"),
"C60": ("`Model.CertUtils.certIsLeaf`", "counterexample; partial with BasicConstraints"),
"C61": ("`Model.Dsse.pae`; `Spec.Dsse` counts bytes", "equal iff the number of characters is the number of bytes iff the type is ASCII"),
"C62": ("`Model.Bundle.init`", "counterexample; bound on the exceptions by cases"),
"C63": ("`Model.Bundle.fixBundle`", "cases; the only changed member is the log entry"),
"C64": ("`Model.Signer.fulcioPost`, `Model.Http`", "iff for success and failure"),
"C65": ("`Model.SigningConfig`, `SigningContext.from_trust_config`", "composition with C39"),
"C66": ("`Model.Oidc`", "counterexamples; partial for claims of the expected types"),
"C67": ("`Model.OAuth`", "counterexamples; partial if the parameters are present; for the out-of-band flow an invariant over all schedules"),
"C68": ("`Model.RekorClient.fromV1Response`", "base64 and hex round trips, cases"),
"C69": ("`Model.CliVerify`, `Model.Tuf`", "no path of the offline command reaches the network"),
"C70": ("`Model.CliTrust`", "refuted for the configuration's own type; proved for the root"),
"C71": ("`Model.CliSign`", "counterexample; invariant for different outputs"),
"C72": ("`Model.CliSign.signIdentity`", "case table, iff"),
"C73": ("`Model.Verifier`; `Spec.World`: a history of logins, signatures and log entries, and what trust in each service means", "composition of C05, C07–C09, C13, C14, C16, C02, C26, C22; worlds meeting all hypotheses in `Props.WorldExamples`"),
"C74": ("as C73", "as C73; refuted for bundles with an envelope as well"),
"C75": ("as C73", "injectivity of the signed payloads (C08)"),
"C76": ("as C73", "C02 and C05 applied to an append-only log"),
"C77": ("as C73", "C27 and C26 applied to CT logs"),
"C78": ("`Model.Verifier` at two times; `Spec.Growth`", "every part of acceptance is monotone under the hypotheses; counterexample in `Props.GrowthExamples`"),
"C79": ("`Model.Verifier` with two trusted roots; `Spec.Growth`", "as C78"),
"C80": ("`Model.Http`: clients on arbitrary responses", "each client as an iff over what the response describes; composed with the signer"),
"C81": ("`Model.Http`: Fulcio", "refutations; iff for `FulcioClientError`"),
"C82": ("`Model.Http`: timestamp client", "cases"),
"C83": ("`Model.Http`: `Issuer.__init__`", "cases; refutation for the other exceptions of `requests`"),
"C84": ("`Model.Http`, `Model.OAuth`", "composition with C41"),
"C85": ("`Model.Http`: token exchange", "cases; refutations"),
"C86": ("`Model.Statement`; `Spec.InToto`", "iff over the members of the document; refutations for attribute names"),
"C87": ("`Model.CliSign` with `Model.Statement` and `Model.Slsa`", "C46, C53, C86 and C88 composed"),
"C88": ("`Model.Slsa`; `Spec.InToto`", "each class as an iff over members; refutations"),
"C89": ("`Model.Args`, `Model.CliMain`; `Spec.Args` has the documented options", "tables compared by the kernel; induction over the occurrences on a line"),
"C90": ("as C89", "refuted for all environments; which `-v` count"),
"C91": ("as C89 with `Model.CliVerify`", "C44, C22 and C25 composed with C89"),
"C92": ("`Model.CliMain.main`", "two lines that differ in `-v` only have the same meaning; case split over commands"),
"C93": ("`Model.CliMain.fixBundleMain`", "C63 with the disk; induction over bytes written; refuted for other encodings"),
"C94": ("`Model.CliMain.main` with all commands", "no step raises `SystemExit(0)`, by cases per function and induction over loops and schedules"),
"C95": ("`Model.CliSign`, `Model.CliVerify`", "simulation between two runs whose disks differ in inputs of equal digest"),
"C96": ("`Model.Traffic`: requests of a session", "simulation between two sessions with different tokens"),
"C97": ("`Model.Traffic`", "decomposition of the trace of each call, induction over calls; refinement to `Model.Signer`"),
"C98": ("`Model.Url`, `Model.OAuth`; forms in `Spec.Url`", "uniqueness of decoding; `parse_qs` inverts `urlencode`; refuted for endpoints with a query"),
"C99": ("`Model.Url` (urlsplit, urlunparse, urljoin)", "computation on URLs made of origin, segments and slashes"),
"C100": ("`Model.CliSign`, `Model.CliVerify`, `Model.CliMain`; `Spec.Usage`", "the checks fail with status 2 only, and whenever the specification is not met"),
"C101": ("`Model.Http`: Rekor clients", "iff for error statuses; bound on exceptions by walking through every read of the document"),
"C102": ("`Model.CliSign`, `Model.CliVerify`, `Model.CliMain`; `Spec.Roundtrip`", "files left by a run hold bundles the signer made (invariant over schedules); C38 and C89; `Props.CliRoundtripExamples` meets all hypotheses at once"),
"C103": ("`Model.CliSign`; `Spec.SignReady`", "a measure on each thread decreases with every turn; an invariant over schedules excludes failures"),
"C104": ("`Model.Verifier`, `Model.Policy`; lists in `Spec.Raises`", "bound by cases per function (`Lemmas.Raises`) and induction over lists and policies; a reachable witness for every exception, evaluated by the kernel"),
"C105": ("`Model.CliSign`, `Model.CliVerify`, `Model.CliMain`; requests in `Spec.Detached`", "signing leaves what it made (frame over the schedule of threads), base64 and PEM text are read back, the hashedrekord asked for is the one logged, and verification of the assembled bundle is C102's; then lifted to command lines"),
"C106": ("`Model.CliReport`; `Spec.Report`", "a model of the run with its output, proved to be `verifyMain` when the output is forgotten; induction over the inputs, the keys of a dictionary built by insertion, `str` of a path read back by the path parser, `repr` of bytes as a literal with the grammar of the specification"),
"C107": ("`Model.CliReport`; `Spec.Logging`", "the effective level by cases over the known names, and the levels of everything that C106 says can be written; the silent failure is a run"),
"C108": ("`Model.SignReport` beside `Model.CliSign`; `Spec.SignReport`", "the run with its output is proved to be the run when the output is forgotten; an invariant over all schedules relates the records of each thread with its program counter, and, when it is done, with the bundle in its outputs; the keys of the output map are the inputs in order of first mention; the counterexamples are runs"),
"C109": ("`Model.Traffic`, `Model.Http`, `Model.Sct`, `Model.Bundle`; `Spec.SignRaises`", "the exceptions of every step are bounded and the bounds composed along the monad; for every exception on the lists a context and services are given for which the run is evaluated (`struct.error` for an SCT of arbitrary length from 2^16)"),
"C110": ("`Model.Bundle`, `Model.Verifier`; `Spec.Evidence`: which parts of a message are evidence", "the leaf and the entry of a constructed bundle are those of its message; every step of verification is rewritten for the other bundle"),
"C111": ("`Model.Bundle`, `Model.Verifier`; `Spec.Evidence`", "a restated bundle is constructed like the original, and C110 carries the outcome over; the other direction reads the key that accepted the promise off the entry check"),
"C112": ("`Model.Verifier`, `Model.Dsse`; `Spec.Confusion`: the bundle of an attestation around the evidence for an artifact", "what each of the two functions requires of the body of the entry is extracted and compared; the steps that both have in common do not see the difference; a concrete case is evaluated"),
"C113": ("`Model.CliMain.getIdentityTokenMain`, `Model.CliSign.signIdentity`; `Spec.IdentityCommand`", "case analysis; the identity is characterised by `IdentityFrom` (C72)"),
"C114": ("`Model.Tuf`, `Model.CliTrust`, `Model.CliMain.updateTrustRootMain`; `Spec.Update`: sequences of runs", "invariant over the list of runs: the two files of the instance keep their content"),
"C115": ("`Model.Argv`: the two passes of argparse on each of three parsers; `Spec.Argv`: a grammar", "the model refines the grammar: soundness by induction over the words with the phase of the positional arguments, completeness by induction over derivations; the tables of options by evaluation"),
"C116": ("`Model.Argv`, `Model.CliMain`; `Spec.Argv.writeLine`", "a derivation in the grammar of C115 for the written words; then C91; the counterexample by evaluation for all identities and issuers"),
"C117": ("`Model.OAuthTraffic`: the machine of C41 with its outputs", "two runs with hash functions that agree on the two verifiers put out the same events up to the token request, by induction over the schedule; the log line by evaluation for every run"),
"C118": ("`Model.OAuthTraffic`, `Model.Url`", "two runs with different secrets put out events that differ in the URL's parameter and the password only, by induction over the schedule; C98 reads the secret back from every URL that is handed out"),
"C119": ("`Model.OAuthTraffic`; `Spec.OAuthTraffic.answerTo`", "invariant by induction over the schedule: the answers so far are those to the requests done, at most one request is pending; progress by a measure of at most four steps per request"),
"C120": ("`Model.Shown`: `repr` of the parsed arguments, and the defaults in the help", "for every credential of plain characters it is an infix of the line, through C89's meaning of options; the level by cases"),
"C121": ("the verifier of C16-C20; `Spec.Periods`", "for timestamps from the soundness of `tsaTimes`; for the rest two verifiers whose roots differ in the periods only (not in what has started) are proved to agree on all bundles, and a bundle is exhibited that is accepted with all periods over before, and with none begun at, the time that counts"),
"C122": ("`Model.Work`: the verification functions with the list of expensive operations they do", "the functions with the list are proved to return what those of C16-C20 return, for all arguments; the bounds stage by stage, from the limit on timestamps, the size of the keyrings, and `bit_length`/popcount of 64-bit numbers"),
"C123": ("the commands of C89-C100; `NoEntryFound`", "every function below `main` is proved not to produce `SystemExit` itself (`Lemmas/NeverExit`), except where `_invalid_arguments` and `_fatal` are called; for `verify` an induction over the materials shows that the status is 2 exactly if the last question to the log found nothing"),
"C124": ("`verifyMain` and `main` as for C44 and C89", "both sides are rewritten with the characterisation of success (C44); what an input denotes and the materials found for it are shown not to depend on the other inputs"),
"C125": ("`Moving.verifyMain`, the same program as `verifyMain` where the n-th access to the file system sees `fs n` and is written into a log", "induction over the loops with the log as an accumulator: each step only appends, tests are not reads, so the list of opened files is that of the options followed by that of the materials; `C125_static` is a simulation between this program and the one of C44"),
"C126": ("`Work.verifyArtifact` and `Work.verifyDsse`, the verification with a trace of its checks (proved to have the result of the verification, C122)", "a relation between two runs: the trace of a step only grows, so agreement on the whole trace is agreement on each step, by induction over the loops; the second part is an invariant of the trace"),
"C127": ("`Library.production`, `Library.staging`, `Library.bundleFromJson` and the documented program `Library.verifyFile`, next to `verifyMain`", "the characterisation of success (C44) and that of the verifier that the library makes are compared condition by condition"),
"C128": ("`MovingClock.*` repeats the functions between `is_timerange_valid` and `verify_artifact`/`verify_dsse` with a clock that gives every reading its own value", "simulation between the two models by induction on the authorities, logs and timestamps; for what is not yet valid, between two runs on trusted roots that agree up to that"),
"C129": ("`Cli.Shared.*`: the checks of `_sign` and its threads with arbitrary changes of the disk by others before each check, between checks and signing, and between any two steps", "invariant of the threads over events of both kinds, for which the step lemma of C43 is reused with the moment at which each thread read its input; the race is a concrete run"),
"C130": ("`Signer.sign` with services of `Spec.Slow`: those of C38 without any assumption about when they answer", "C38 for the same call with services cut down to the one request that was made; the converse from C13 and C14, since every time in the bundle is a verified time"),
"C131": ("`signMain`/`attestMain` with a schedule that may end anywhere (a killed command is a run whose schedule has ended)", "a second invariant of the threads next to that of C43: what a thread has not come to is as it was; by induction over the schedule"),
"C132": ("`LogEntry.verify`, `Bundle.init`, `verifyArtifact`, `verifyDsse` with the checkpoint replaced", "a noninterference theorem: two runs that differ only in signatures with other hints; the round trip of C07 gives the parse of both"),
"C133": ("`step`: `from_tuf` of several processes as steps on a shared directory (`Model/TufShared.lean`)", "an invariant over all schedules (what is in the cache is as it was or an incomplete copy of the material; what each process knows at each point); invariants for offline processes; explicit executions for the refutations and for the repair"),
"C134": ("`follow`, `redirected`, `shouldStripAuth` of `requests` beneath the clients of `Model/Traffic.lean` (`Model/Redirects.lean`)", "a simulation between two runs with different credentials, by induction on redirects and then on the session (C96 with derived services); induction on redirects for bodies and number; an explicit service for the refutation"),
"C135": ("`pieces`: what `_sha256_streaming` gets from `readinto`, if each reading of the operating system finds another content (`Model/Torn.lean`)", "induction on the readings; explicit versions for the refutation"),
"C136": ("`write` and `readValue`: JSON text with escapes, blanks, repeated names and a limit on the depth (`Model/JsonText.lean`)", "mutual induction on documents for reading back; induction on the steps of the reader for both directions of the grammar; monotonicity in the limit for the iff"),
}

def where():
    m = {}
    d = os.path.join(ROOT, "lean/Verif/Props")
    for f in sorted(os.listdir(d)):
        for n in re.findall(r"^theorem (C\d+_\w+)", open(os.path.join(d, f)).read(), re.M):
            m[n] = f[:-5]
    return m

def main():
    titles = {o["id"]: o["title"] for o in map(json.loads, open(os.path.join(ROOT, "properties.jsonl")))}
    files = where()
    out = ["## Property by property", ""]
    for pid, status, thms, note in sorted(CLAIMS, key=lambda c: int(c[0][1:])):
        model, proof = HOW[pid]
        by = {}
        for t in thms:
            by.setdefault(files[t], []).append(t)
        tl = "; ".join(f"`Props.{f}`: " + ", ".join(f"`{t}`" for t in ts) for f, ts in by.items())
        out += [f"### {pid} {titles[pid]} ({status})", "", f"* Modelled: {model}.", f"* Proof: {proof}.", f"* Theorems: {tl}."]
        if note:
            out.append(f"* Note: {note}.")
        out.append("")
    p = os.path.join(ROOT, "DESIGN.md")
    s = open(p).read()
    i = min(x for x in (s.find("## Plan per property"), s.find("## Property by property")) if x >= 0)
    open(p, "w").write(s[:i] + "\n".join(out))

main()
