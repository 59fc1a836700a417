# Design of the formal model of sigstore-python

Target: `/repo/sigstore` (sigstore-python 4.x, pinned).  Method: shallow embedding in Lean 4.
Every Python function in scope becomes a total Lean function; Python exceptions are values
(`Except Exc α`); third-party behaviour (SHA-256, signature schemes, X.509 path building, RFC 3161
verification, JSON parsers, `requests`, the TUF client, the file system, clocks) is a *parameter* of
the model, quantified over in every theorem, sometimes with an explicit law as hypothesis.

## Layout

* `lean/Verif/Prelude/*`  byte strings, text, UTF-8, hex, base64, decimal numerals, Python string methods,
  insertion-ordered dicts, crypto parameters, Python exceptions
* `lean/Verif/Model/*`    function-by-function transcription of the code (comments cite file:lines)
* `lean/Verif/Spec/*`     independent specifications (RFC 6962 trees, signed notes, DSSE, ...)
* `lean/Verif/Lemmas/*`   helper lemmas
* `lean/Verif/Props/*`    property theorems `Cnn_*`, concrete `example`s, negation witnesses

## Trusted base

* Lean 4.33 kernel; axioms `propext`, `Classical.choice`, `Quot.sound` only (no `sorry`, no own
  axioms, no `native_decide`, no `bv_decide`).
* The transcription of Python into Lean (reviewed by hand; each definition cites its source lines).
* The meaning of the parameters listed under "not modelled".

### Not modelled (parameters)

SHA-2 functions; ECDSA/RSA/Ed25519 verification and signing; DER/PEM/X.509 parsing (a certificate is
the record of the attributes the code reads); OpenSSL path validation; `rfc3161_client` verification;
JSON texts other than those of statements (C136); pydantic's validation of bundles, trusted roots and log bodies; `python-tuf`; the transport of `requests` (its
outcome is a response or one of its exceptions; what the clients do with either is modelled in `Model/Http.lean`);
the file system and clocks; progress output, message texts of exceptions, and logging (but see `Model/CliReport.lean` for what
`verify` writes).
Python `str` values are sequences of Unicode scalar values (no lone surrogates).

Recorded simplifications that belong to the trusted base:

* `Crypto.rsaPkcs1/ecdsa/ed25519` return a `Bool`; `false` is `InvalidSignature`.  Loading a DER key
  returns `none` for any exception.
* `_get_tlog_keys` reads the clock once per key in the code and once per call in the model; for verification C128 shows when this makes no difference.
* `TimeRange.start` is always present (it is in every message the code reads).
* A certificate is the record of the attributes the code reads (`Model/Cert.lean`); the DER UTF8String
  decoder used for Fulcio v2 extensions is modelled (`Prelude/Der.lean`).
* `hashlib` objects are modelled by the concatenation of what was passed to `update`.
* `datetime.timestamp()` is one correctly rounded binary64 division and `* 1000` one binary64 product
  (`Prelude/Float64.lean` models rounding to nearest, ties to even, without exponent limits).
* Calling `verify(sig, data, ECDSA)` on a key that is neither EC, RSA nor Ed25519 is modelled as `AttributeError`.
* In-toto statements and SLSA predicates are validated as JSON documents (`Model/Statement.lean`, `Model/Slsa.lean`: what
  pydantic does with the class declarations); reading and writing JSON text is a parameter, except in C136, where it is modelled
  (`Model/JsonText.lean`; the behaviour of pydantic's reader and writer is assumed there).  A JSON object is a list of members
  in which the first of several members with one name counts (the parsers keep only one, so there are never several).
* Disk (`Model/CliSign.lean`): a map from resolved paths to files and directories that only the command changes (others may in
  `Model/SharedDisk.lean`, C129);
  `exists()` does not raise; a failing `mkdir` makes nothing; writing to an opened file may fail after any number of bytes (`canPut`); a file is truncated
  when opened and filled byte by byte, and threads interleave at every read, service call and written byte.
* Command lines (`Model/Args.lean`, `Model/Argv.lean`): argparse is modelled as it is in Python 3.11, as far as the code uses
  it (tables of options, defaults from the environment, required and exclusive options, nested parsers and namespaces; which
  words are options, abbreviations, `--x=y`, `--`, several short flags in one word).  Which words are negative numbers is a
  parameter.  Not modelled: response files (the code does not enable them), and the texts of usage messages.  The conversions
  by `type` and `choices` come after parsing, so a line with a wrong value and, after it, a request for help is one for help.
* `main(args)` with an empty list takes the words of the process (`if not args:` in `_cli.py:627`), and so does the model.
* Text written with `write_text` by `fix-bundle` is encoded as the locale says, a parameter; the outputs of `sign` and `attest`
  are opened with `encoding="utf-8"` in the code.  Lines end with a line feed (no translation as on Windows).
* `--trust-config` files are read with `read_text()`, in the encoding of the locale; the model takes UTF-8.
* Files read by `verify` do not change during a command in `Model/CliVerify.lean`.  `Model/Moving.lean` drops this: every access
  finds other files (C125).  One read is one access there; C135 (`Model/Torn.lean`)
  is about digesting, which reads a file in pieces.
* Trust material (`Model/Tuf.lean`): one process, whose writes to the cache do not fail. `Model/TufShared.lean` drops this (C133). What
  the TUF library does with files is taken from python-tuf: targets are written in place with `open(path, "wb")`.
* Redirects (`Model/Redirects.lean`, C134): what `requests` does with them is transcribed from its release 2.32.3, which is not part of
  `/repo`.  Parsing and joining URLs and `.netrc` are parameters; cookies and proxies are left out.
* Python `int(text)` is a parameter `pyInt`; only the round-trip on decimal numerals is ever assumed.

## Disagreements between the listed properties and the code

Each is proved as a negation with a concrete witness; the `_partial` theorems say what does hold.

* C04: `log_index < tree_size` and `tree_size = checkpoint size` are never checked.
* C06: malformed checkpoints raise `ValueError`/`binascii.Error`/`IndexError` besides `VerificationError`.
* C24: a child of `AnyOf` that raises anything but `VerificationError` (for instance a `ValueError` from
  decoding an extension) aborts the whole policy, even if a later child would accept.
* C28: `sct._cert_is_ca` ignores the result of `cert_is_ca`, so any certificate on which `cert_is_ca` does not
  raise passes as the issuer of a precertificate SCT (path validation, not modelled, still applies).
* C29: the millisecond timestamp of an SCT goes through binary64 seconds; about a quarter of the timestamps from
  19 January 2038 to September 2039 come out one millisecond too small, so their SCTs would be rejected.
* C61: `_pae` uses the number of code points of the payload type instead of its number of bytes.
* C60: a certificate without BasicConstraints is a leaf even if its KeyUsage asserts `keyCertSign`.
* C59: the curve of an EC key is not compared with its declared algorithm.

* C19: besides `VerificationError`, verification raises `ValueError` (log time beyond year 9999, digest of the wrong
  length), `MetadataError` (no CT or Rekor key), pydantic errors (unparsable log body), `TypeError` (RSA key),
  `ExtensionNotFound` (no KeyUsage/EKU), `InvalidEnvelope` (several signatures) and `Error` (digest not SHA-256).
* C32: `fix-bundle --upgrade-version` drops the signed timestamps (`_to_parts` does not return them), and fails on a
  bundle whose only time source was a timestamp.
* C36: a `Signer` created with `cache=False` generates a fresh private key at every access of `_private_key`, so the key
  of the certificate request and the signing key differ; its bundles never verify.
* C40: a null identity claim (`"email": null`) is accepted and becomes the identity text `None`.
* C41: in the out-of-band flow the flag that makes the redirect server hand out the authorization URL only once is set
  without a lock; a local request answered while the main thread asks for the URL gets a second URL with the same state
  and another redirect URI.
* C49: a `requests.Response` with an error status is falsy, so HTTP 404 raises instead of giving `None`.
* C50: index 0 and the empty uuid are treated as absent.
* C65: forcing a Rekor version other than 1 and 2 ends in an `AssertionError`.
* C66: a list as issuer, or texts as `exp`/`nbf`, make `IdentityToken` raise `TypeError`.
* C67: a redirect without parameters ends the OAuth flow with `KeyError`.  If a local program asks the redirect server for `/`
  before the out-of-band flow builds its URL, the flow ends with `id.IdentityError` (`oauth.py:32` imports that class instead of
  `sigstore.oidc.IdentityError`), which is no sigstore `Error`, so the command line prints a traceback.
* C47: the URLs `""` (also `/`, `//`, ...) and `.` share the directory `tuf`, and `..` its parent.
* C48: exceptions of `get_targetinfo` (which may load delegated metadata) and of reading the bootstrap root are not
  turned into `TUFError`.
* C45: any character is accepted between `sha256` and the digits, and blanks between pairs of digits.
* C70: `ClientTrustConfigType` is only used to write a media type; that of a loaded configuration is never compared.
* C43: with `--overwrite`, the output of one input may be another input file; a worker thread that reads the latter late
  signs the former's bundle.
* C46: `attest --bundle X a b` writes both attestations to `X`; one is lost (`sign` rejects this combination).
* C71: `sign --output-directory D x/a y/a` writes both bundles to `D/a.sigstore.json`; one is lost.
* C74: `Bundle.signature` prefers the envelope's signature, and nothing in the package excludes a bundle with both an
  envelope and a message signature (the parser of `sigstore_models` may); `verify_artifact` then checks timestamps of the
  former and the artifact against the latter, so the artifact may have been signed after the certificate expired.
* C62: building a `Bundle` leaks `ValueError`-like errors from malformed embedded certificates and timestamps.
* C78, C79: verification is not monotone in trust. Every timestamp that some trusted authority vouches for has to lie in
  the certificate's validity (`_verify_common_signing_cert` loops over all verified times), and timestamps that no
  authority vouches for are ignored (`_verify_timestamp_authority`). So when an authority is added, or its period starts,
  a timestamp that was ignored begins to count, and an accepted bundle can be rejected (`C78_rejected_later`,
  `C79_rejected_with_more_trust`). The same holds of keys: `Keyring.verify` tries every key when the id is unknown, and
  only the named key when it becomes known; therefore the partial theorems ask for known ids.
* C81: `FulcioSigningCert.post` lets connection errors, `JSONDecodeError`, `TypeError`, `AttributeError` and `ValueError`
  through; and `if http_error.response:` is false for every error status, so the server's message is never reported.
* C101: the Rekor clients raise `RekorClientError` for error statuses only; connection errors, answers that are no JSON and
  documents that describe no entry escape as `ConnectionError`, `JSONDecodeError`, `AttributeError`, `KeyError`, `TypeError`,
  `ValueError`, `binascii.Error` or pydantic's `ValidationError`, none of which `main` handles.
* C83: `Issuer.__init__` handles connection errors, timeouts and error statuses; other exceptions of `requests` (too many
  redirects, invalid URL, ...) get through.
* C85: a token response that is no JSON, no JSON object, or has neither `error` nor `access_token` raises
  `JSONDecodeError`, `AttributeError` or `KeyError`.
* C86: `populate_by_name=True` lets a payload use `type_`, `subjects` and `predicate_type` instead of `_type`, `subject` and
  `predicateType`; other verifiers see no statement there, or another one if both names are present.  A subject
  without `name` is rejected, because `name: Optional[StrictStr]` has no default.
* C88: `content: Optional[bytes]` of a resource in strict mode rejects every JSON value, so SLSA provenance with embedded contents
  cannot be attested; and the v0.2 booleans accept `"yes"`, `1` and the like.
* C90: `--cert-identity` and `--cert-oidc-issuer` of `verify identity` are `required=True`, so their environment variables are
  never used; a `-v` before the command (or between `verify` and its subcommand) is overwritten by the default of the innermost
  parser; a switch that is no word for yes or no, such as an empty `SIGSTORE_OVERWRITE`, makes every command, even `--help`,
  end with an uncaught `ValueError`.
* C93: `write_text` truncates before it encodes, in the encoding of the locale; checkpoints contain a dash outside ASCII.  A
  full disk leaves only a beginning of the new text (`C93_in_place_truncates`).  And `fix-bundle` only looks at `--staging`.
* C98: the authorization request is appended to the endpoint with `?` even if the endpoint has a query already, so the last
  value of that query continues with `?response_type=code` and the request has no response type.  (The client secret, if one
  is given, is part of the authorization URL.)
* C99: `urljoin(fulcio_url, "/api/v2/...")` drops the path of the configured URL; the Rekor clients keep a trailing slash, so
  that the path of the request starts with `//`.
* C106: `verify github` prints `statement._contents` without decoding it, so standard output gets `b'...'` instead of the
  statement that `verify identity` prints.  With `--verbose` a failure is reported twice (`log_and_exit` raises inside the `try` of
  `main`).
* C107: `SIGSTORE_LOGLEVEL=critical` silences failed verifications; a value that is no level makes the import of `_cli.py` fail.
* C108: with inputs of the same name and `--output-directory`, `sign` prints the same `Sigstore bundle written to` line twice although only one bundle is there; after a failure the bundles that were written are not mentioned.
* C111: an entry with a promise but without time (or with time 0), or without a promise, may state any log index, and without a promise any integrated time; `Bundle.log_entry` of an accepted bundle reports them as if they were verified.
* C112: in logs of the second version attestations are recorded as `hashedrekord` entries of the encoded envelope, and nothing separates them from artifacts: whoever gets somebody to sign a file whose content is `DSSEv1 <n> <type> <m> <payload>` can present the signature and its log entry as that person's attestation.
* C114: the trusted root and the signing configuration are downloaded one after the other; if the second download fails, the first file is already replaced, and `--offline` runs use the new trusted root with the old signing configuration.
* C117: With `-vv` the OAuth flow logs the authorization code and the PKCE verifier: `logging.debug(f"PAYLOAD: …")`
  (`oidc.py:343`) uses the root logger. `C117_verifier_logged`.
* C118: The client secret is a query parameter of the authorization URL (`oauth.py:227-237`). The URL is printed on the screen
  in the out-of-band flow, and given to the first local program that asks the redirect server for `/` otherwise.
  `C118_secret_in_url`, `C118_url_printed`.
* C119: A second request for `/` (a reload of the page) gets no response: `auth_endpoint` raises `IdentityError` in the
  handler's thread, after the status line went into the buffer.
* C120: `-v` logs all parsed arguments (`_cli.py:639`), with the identity token and the client secret. `--help` shows the
  values of `SIGSTORE_IDENTITY_TOKEN` and `SIGSTORE_OIDC_CLIENT_SECRET` as defaults, because the parser is built with
  `ArgumentDefaultsHelpFormatter`. `C120_logged`, `C120_help`.
* C121: Validity periods of logs and certificate authorities are all but ignored in verification. `is_timerange_valid` is called
  with `allow_expired=True` (`_utils.py:360-379`, `models.py:846-849`, `883`), so that the end is not looked at, and the start is compared with the clock, not with
  the time at which the evidence was made. A Rekor key, CT key or CA that was retired long before the verified time is as good as a
  current one; only the periods of timestamp authorities are compared with the times they vouch for.
* C127: the documentation of `sigstore.verify` (`verify/__init__.py:34`) calls `Verifier.verify`, which does not exist; the methods
  are `verify_artifact` and `verify_dsse`, and they return nothing that `print(result)` could show as a result of an artifact.
* C129: `sigstore sign` without `--overwrite` looks whether its outputs exist before it signs (`_cli.py:924-938`) and opens them with
  mode `w` afterwards (`_cli.py:733-745`), not with mode `x`: a file that another program makes in between, a second `sigstore sign`
  for instance, is overwritten, and the command succeeds (`C129_race`).
* C130: the life of a certificate is checked before signing only (`sign.py:157-161`).  If a timestamp authority or the log answers after
  the certificate's end, `sign_artifact` and `sign_dsse` return a bundle without complaint, and no verifier accepts it (C130_late).
* C131: outputs are opened with mode `w` and written one after the other (`_cli.py:733-745`), not to a temporary file that
  is then renamed. A `sign --overwrite` that is killed after the open leaves an empty file where the previous bundle was
  (`C131_killed_loses`). One that meets a full disk leaves a beginning of the new bundle and not the old one
  (`C131_full_disk`). One that fails at the bundle leaves the new signature next to the old bundle
  (`C131_failure_mixes`).
* C132: which signature on a checkpoint is the log's is decided by the four bytes of the key hint alone, and the first with the hint
  decides (`checkpoint.py:181-195`); the signed-note format also compares names, and tries further signatures. A signature of another
  that has the same hint and comes first makes the bundle unverifiable (`C132_same_hint`). It cannot make a bad one verifiable.
* C133: files that are missing in the cache of trust material are copied from the package, with a test and a write that are not one
  step (`tuf.py:91-94`), and material is read by its path after it has been verified. Two first runs at the same time can end with
  one of them using the trusted root of the package although it has just verified a newer one (`C133_race`). A first run that is
  killed while it copies leaves an incomplete file, and offline runs fail until an online run replaces it (`C133_killed`, `C133_stuck`).
* C134: no client passes `allow_redirects=False`, so `requests` follows redirects. It strips the header `Authorization` when the host changes, but repeats the body after the statuses 307 and 308: a token endpoint (`oidc.py:345`) that redirects so has authorization code and PKCE verifier sent to any URL, even without TLS. (`C134_form_elsewhere`)
* C135: `_sha256_streaming` (`_utils.py:179-209`) reads a file in pieces. If another program rewrites it in place meanwhile, the digest is of a
  content that the file never had, and this is what is signed or verified. (`C135_torn`) The comment in the code mentions truncation only.
* C136: a statement is one level deeper than its predicate. For a reader that refuses documents deeper than a limit, `attest` signs
  predicates at the limit whose statements `verify` then refuses (`C136_too_deep`). That pydantic's reader has such a limit, and its writer
  none that is lower, is assumed (from memory 200 for the reader; pydantic was not available to check).

## Seeded bugs

`seeded/LOG.jsonl` has one line per wrong program tried (`tools/mutate.py`, `tools/seedlog.py`; the edits are in `seeded/*.py`).

* `theorems_failed` lists the declarations that Lean no longer accepts after the edit. A listed theorem need not be false of the
  edited model: its proof may only follow the shape of the definition. Not every line was examined for this; where it was and the
  theorem is still true, `note` says so (`tn12`).
* The build stops at the modules that fail, so theorems in modules that import them are not listed.
* Entries `example@N` are concrete cases, which are tests. Where only examples failed (`t13`, `w09`, `tn13`), a theorem was added, or
  the example was moved out of the way of the theorems that depend on its module, and the bug was tried again.
* Builds that end without an error in a declaration, such as when Lean runs out of memory, are inconclusive and not logged.
* `survived` says that everything was still accepted.

## Property by property

### C01 Every honest inclusion proof is accepted (proved)

* Modelled: `Model.Merkle` (`_decomp_inclusion_proof`, `_chain_inner`, `_chain_border_right`, `verify_merkle_inclusion` with the bit operations of the code); `Spec.Rfc6962` defines MTH and PATH by recursion on the largest power of two.
* Proof: induction along the RFC recursion, with lemmas on `bit_length`, shifts and the inner/border decomposition.
* Theorems: `Props.Merkle`: `C01_honest_proof_accepted`.
* Note: all logs, all indices, all hash functions.

### C02 An accepted inclusion proof identifies the leaf (proved)

* Modelled: as C01.
* Proof: induction on the tree; the hash is injective on the finite set of strings that occur.
* Theorems: `Props.Merkle`: `C02_accepted_is_leaf`, `C02_accepted_is_member`, `C02_no_equivocation`.
* Note: hypothesis: no collision among the finitely many strings hashed; fixed digest length.

### C03 Inclusion proofs have exactly one admissible length (proved)

* Modelled: as C01.
* Proof: the number of hashes consumed equals the length of the RFC path.
* Theorems: `Props.Merkle`: `C03_exact_length`, `C03_wrong_length_rejected`.
* Note: for index < size.

### C04 A verified entry's claimed log position is inside the tree the log signed (partial)

* Modelled: `Model.LogEntry`, `Model.Merkle`, `Model.Checkpoint`.
* Proof: counterexample entry accepted outside the tree; the partial theorem is a corollary of C01–C03.
* Theorems: `Props.LogEntry`: `C04_position_not_checked`, `C04_path_matches_claimed_position_partial`.
* Note: the full claim is false of the code (refuted by a concrete entry); the partial theorem says what the proof check does guarantee about the position.

### C05 A verified checkpoint was signed by a trusted log key and commits to the proof's root (proved)

* Modelled: `Model.Checkpoint`: parser of notes and checkpoints, regular expression, lenient base64 (`Prelude.Base64`).
* Proof: case analysis of every step, as an iff.
* Theorems: `Props.Checkpoint`: `C05_checkpoint_sound`, `C05_unambiguous`.
* Note: for all texts, keyrings, log ids.

### C06 A malformed checkpoint fails with VerificationError and nothing else (partial)

* Modelled: as C05.
* Proof: texts that raise `ValueError`, `binascii.Error` (refutation); classification of all failures.
* Theorems: `Props.Checkpoint`: `C06_malformed_leaks_other_errors`, `C06_non_ascii_root_leaks`, `C06_failures_classified_partial`, `C06_clean_partial`.
* Note: the full claim is false of the code (refuted); partial: complete classification of the errors that can occur, and a condition under which only VerificationError occurs.

### C07 Notes written by a log are read back unchanged (proved)

* Modelled: as C05; `Spec.SignedNote` writes notes.
* Proof: round trip through the parser by list lemmas on separators and lines.
* Theorems: `Props.Checkpoint`: `C07_roundtrip`, `C07_honest_checkpoint_iff`, `C07_no_hint_rejected`.
* Note: hypothesis: the integer parser reads back decimal numerals.

### C08 A signed entry timestamp binds body, time, log id and index (proved)

* Modelled: `Model.LogEntry.encodeCanonical`; `Spec.Canonical` writes the RFC 8785 text.
* Proof: equality of texts, then injectivity by parsing quoted members and numerals from the front.
* Theorems: `Props.LogEntry`: `C08_set_payload_iff`, `C08_set_payload_injective`, `C08_set_payload_defined`, `C08_verified_set_is_a_signed_entry`.

### C09 The log's integrated time is only trusted when its SET has been verified (proved)

* Modelled: `Model.Verifier.logTime`, `Model.LogEntry.verifySet`.
* Proof: case analysis of the time sources and of entry verification.
* Theorems: `Props.Verification`: `C09_log_time_promised`, `C09_no_promise_no_time`.

### C10 Keyring verification accepts exactly what a trusted key accepts (proved)

* Modelled: `Model.Trust`: `Keyring`, `Key.verify`.
* Proof: induction over the candidate keys, iff with “some key accepts”.
* Theorems: `Props.Trust`: `C10_keyring_total`, `C10_keyring_iff`, `C10_known_id`, `C10_unknown_id`, `C10_sound`, `C10_failure_is_verification_error`.

### C11 Trusted keys only load when their material matches their declared algorithm (proved)

* Modelled: `Model.Trust`: `Key.__init__` for every key detail.
* Proof: iff by cases over the details and the loaded key.
* Theorems: `Props.Trust`: `C11_loads_iff`, `C11_loaded_key_usable`, `C11_load_failure`, `C11_bad_key_skipped`.

### C12 Key and CA validity windows (proved)

* Modelled: `Model.Trust`: `is_timerange_valid` and its uses for keys and authorities.
* Proof: list lemmas on `filter`, with both ends of the interval.
* Theorems: `Props.Trust`: `C12_usable_iff`, `C12_sign_usable_implies_verify_usable`, `C12_log_keys_iff`, `C12_log_keys_order`, `C12_verify_usability_monotone`, `C12_rekor_keyring`, `C12_ct_keyring`, `C12_fulcio_certs_iff`, `C12_fulcio_certs_error`.

### C13 verify_artifact succeeds exactly when every required check holds (proved)

* Modelled: `Model.Verifier`: the whole of `verify_artifact`; `Spec.Verification` states what an accepted artifact is.
* Proof: each step as an iff, composed.
* Theorems: `Props.Verifier`: `C13_verify_artifact_iff`.
* Note: hypothesis: the trusted root's timestamp authorities carry a validity window.

### C14 verify_dsse returns exactly the payload that was signed and logged (proved)

* Modelled: as C13 for `verify_dsse`.
* Proof: as C13.
* Theorems: `Props.Verifier`: `C14_verify_dsse_iff`.
* Note: hypothesis: the trusted root's timestamp authorities carry a validity window.

### C15 Accepted certificates were valid at every trusted time (proved)

* Modelled: `Model.Verifier.checkWindow`, `verifyChains`.
* Proof: induction over the verified times.
* Theorems: `Props.Verification`: `C15_valid_at_every_time`, `C15_expired_rejected`.
* Note: the chain validation itself (OpenSSL) is a parameter.

### C16 Only timestamps from a trusted authority inside its window count (proved)

* Modelled: `Model.Verifier.verifySignedTimestamp` over the list of authorities.
* Proof: induction over authorities and timestamps, iff with `Spec.TrustedTsr`.
* Theorems: `Props.Verifier`: `C16_timestamp_iff`, `C16_timestamp_sound`, `C16_tsa_times_iff`, `C16_rejected`, `C16_establish_time_iff`.

### C17 Untrusted extra timestamps cannot change the verified times (proved)

* Modelled: as C16.
* Proof: induction; permutations of the list of timestamps.
* Theorems: `Props.Verification`: `C17_extra_timestamps`.

### C18 No confusion between artifact and attestation bundles (proved)

* Modelled: `Model.Verifier.checkArtifact`, `checkDsse`.
* Proof: kind and version of the entry exclude each other.
* Theorems: `Props.Verification`: `C18_artifact_needs_message_signature`, `C18_dsse_needs_envelope`, `C18_exclusive`.

### C19 Verification failures surface as VerificationError (partial)

* Modelled: all of `Model.Verifier`.
* Proof: refuted by concrete bundles; conditions under which only `VerificationError` occurs, by cases per function.  C104 gives the exact list.
* Theorems: `Props.Failures`: `C19_artifact_leaks`, `C19_dsse_leaks`, `C19_more_leaks`, `C19_artifact_clean_partial`, `C19_dsse_clean_partial`.
* Note: the full claim is false of the code (refuted by concrete inputs); conditions under which only VerificationError is raised are proved sufficient.

### C20 One bundle vouches for one artifact (proved)

* Modelled: `Model.Verifier`.
* Proof: two acceptances give equal digests and equal hashed inputs.
* Theorems: `Props.Verification`: `C20_one_artifact`, `C20_same_document`.

### C21 AllOf is conjunction, AnyOf is disjunction, empty combinators reject (proved)

* Modelled: `Model.Policy`: policy trees.
* Proof: structural induction.
* Theorems: `Props.Policy`: `C21_allOf_iff`, `C21_allOf_error_iff`, `C21_anyOf_exact`, `C21_anyOf_iff`, `C21_empty_rejects`.

### C22 Identity policy checks the identity and the issuer (proved)

* Modelled: `Model.Policy.verifyIdentity`.
* Proof: iff, with the SAN kinds spelled out in the specification.
* Theorems: `Props.Policy`: `C22_identity_iff`, `C22_mismatch`, `C22_empty_issuer_is_no_issuer`.

### C23 Each extension policy checks its own extension for exact equality (proved)

* Modelled: `Model.Policy.verifyExt` with the DER reader of `Prelude.Der`.
* Proof: table of classes; iff with the encoded extension, by the DER round trip.
* Theorems: `Props.Policy`: `C23_oid_table`, `C23_oids_distinct`, `C23_ext_iff`, `C23_value_unique`, `C23_ext_errors`.

### C24 AnyOf accepts whenever some child accepts (partial)

* Modelled: `Model.Policy.verifyAny`.
* Proof: counterexample; induction for children that raise only `VerificationError`.
* Theorems: `Props.Policy`: `C24_anyOf_can_abort`, `C24_anyOf_accepts_partial`.
* Note: the full claim is false of the code (refuted by a concrete policy): a child raising anything but VerificationError aborts AnyOf.

### C25 `verify github` always pins the GitHub issuer (proved)

* Modelled: `Model.CliVerify.githubPolicy`.
* Proof: the list of children always contains the issuer policy.
* Theorems: `Props.Policy`: `C25_github_iff`, `C25_github_requires_identity_or_repository`.

### C26 The SCT signed payload is unambiguous and RFC 6962 shaped (proved)

* Modelled: `Model.Sct.packDigitallySigned`; `Spec.Rfc6962Sct` encodes the TLS structure.
* Proof: equality with the encoder; injectivity by reading length prefixes.
* Theorems: `Props.Sct`: `C26_is_rfc6962`, `C26_encode_injective`, `C26_pack_injective`, `C26_large_rejected`.
* Note: the timestamp field is the one computed by the code, see C29.

### C27 verify_sct accepts only a single SCT signed by a trusted CT key (proved)

* Modelled: `Model.Sct.verifySct`.
* Proof: iff with the specification.
* Theorems: `Props.Sct`: `C27_verify_sct_iff`, `C27_signed_by_trusted_ct_key`.

### C28 A precertificate SCT is only accepted if the issuer is a CA (partial)

* Modelled: `Model.Sct.sctCertIsCa`, `Model.CertUtils.certIsCa`.
* Proof: counterexample chain; what is left is proved.
* Theorems: `Props.Sct`: `C28_non_ca_issuer_accepted`, `C28_issuer_consistent_partial`.
* Note: the full claim is false of the code (refuted by a concrete chain): the result of cert_is_ca is ignored.

### C29 SCT timestamps keep their millisecond value (partial)

* Modelled: `Prelude.Float64`, `Model.Sct.sctMillis`.
* Proof: exact integer bounds on both roundings for each binade between 2004 and 2038; counterexample in 2038.
* Theorems: `Props.Sct`: `C29_millis_not_exact`, `C29_exact_partial`, `C29_within_one_partial`.
* Note: the full claim is false of the code (refuted by a concrete timestamp in 2038); exact between 2004 and January 2038, never off by more than 1 ms.

### C30 Certificate classification is consistent (proved)

* Modelled: `Model.CertUtils`.
* Proof: cases over versions and extension states.
* Theorems: `Props.CertUtils`: `C30_ca_iff`, `C30_not_ca_iff`, `C30_ca_error_iff`, `C30_leaf_iff`, `C30_ca_leaf_exclusive`, `C30_root_iff`.

### C31 Every Bundle object satisfies the bundle format's requirements (proved)

* Modelled: `Model.Bundle.init`.
* Proof: iff with the requirements of each bundle version.
* Theorems: `Props.Bundle`: `C31_bundle_iff`, `C31_bundle_invariant`.

### C32 Re-assembling a bundle preserves its verification material (partial)

* Modelled: `Model.Bundle`: `_to_parts`, `_from_parts`.
* Proof: counterexample with timestamps; equality otherwise.
* Theorems: `Props.Bundle`: `C32_upgrade_loses_timestamps`, `C32_upgrade_can_fail`, `C32_upgrade_iff_partial`, `C32_reassemble_partial`.
* Note: the full claim is false of the code (refuted by concrete bundles): --upgrade-version drops the signed timestamps.

### C33 The DSSE pre-authentication encoding is injective (proved)

* Modelled: `Model.Dsse.pae`, `Prelude.Utf8`.
* Proof: reading decimal lengths and prefixes from the front.
* Theorems: `Props.Dsse`: `C33_pae_injective`, `C33_no_shift`.

### C34 Signing then verifying an envelope succeeds and returns the statement (proved)

* Modelled: `Model.Dsse`: `_sign`, `_verify`.
* Proof: computation, given that the scheme accepts what it signed.
* Theorems: `Props.Dsse`: `C34_envelope_iff`, `C34_verify_iff`, `C34_sign_verify`; `Props.Statement`: `C34_builder`.

### C35 A caching signer requests one key and one certificate and never signs after expiry (proved)

* Modelled: `Model.Signer` as a state machine over arbitrary answers of the services.
* Proof: invariant by induction over the calls.
* Theorems: `Props.Signer`: `C35_caching_signer`, `C35_construction_effects`, `C35_new_certificate_has_sct`.

### C36 A returned bundle's signature matches its certificate (partial)

* Modelled: as C35.
* Proof: refuted for every call of a `Signer` without a cache; invariant for the others.
* Theorems: `Props.Signer`: `C36_uncached_uses_another_key`, `C36_uncached_never_verifies`, `C36_signature_matches_partial`.
* Note: the full claim is false of the code for Signers without a cache (refuted for every such call): the certificate request and the signature use different keys; proved for caching Signers.

### C37 Timestamp authority failures never produce a bundle without a time source (proved)

* Modelled: `Model.Signer` with the timestamp client.
* Proof: cases; list induction over the authorities.
* Theorems: `Props.Signer`: `C37_client_raises_timestamp_error`, `C37_client_returns_response`, `C37_timestamps`, `C37_no_time_source`, `C37_failures_tolerated`.

### C38 Bundles produced by signing against honest services verify (partial)

* Modelled: `Model.Signer` composed with `Model.Verifier`; honest services in `Spec.Honest` and `Spec.Rekor`.
* Proof: uses C01, C07, C10, C13, C14, C27, C29, C52; a world meeting all hypotheses in `Props.EndToEndExamples`.
* Theorems: `Props.EndToEnd`: `C38_signed_bundle_verifies_partial`, `C38_signing_succeeds`, `C38_end_to_end_partial`; `Props.Signer`: `C36_uncached_never_verifies`.
* Note: proved for caching Signers (the default) and SCTs from before January 2038; refuted for Signers without a cache (C36); honest services as in Spec/Honest.

### C39 Service selection from a signing config (proved)

* Modelled: `Model.SigningConfig`; the selection in declarative form.
* Proof: invariants of the grouping fold; iff for success and for failure.
* Theorems: `Props.SigningConfig`: `C39_services_iff`, `C39_failure_iff`, `C39_services_properties`.

### C40 A constructed identity token is inside its validity window and has an identity (proved)

* Modelled: `Model.Oidc`: `IdentityToken.__init__`.
* Proof: iff over the claims.
* Theorems: `Props.Oidc`: `C40_token_iff`, `C40_in_validity_period`, `C40_audience`, `C40_null_identity`.
* Note: a null identity claim becomes the identity text None.

### C41 The OAuth redirect flow accepts one matching response (partial)

* Modelled: `Model.OAuth`: redirect server and main thread as two automata.
* Proof: invariants over all interleavings; a schedule with the race refutes the out-of-band flow.
* Theorems: `Props.OAuth`: `C41_first_response`, `C41_response_stable`, `C41_code_iff`, `C41_browser_flow`, `C41_out_of_band_partial`, `C41_out_of_band_race`.
* Note: complete for the browser flow; false of the code for the out-of-band flow (refuted by a concrete schedule), where it is proved for all schedules without the race.

### C42 `sign` does not overwrite existing files unless asked (proved)

* Modelled: `Model.CliSign`: output maps and threads on a disk.
* Proof: invariant over the loop and over all schedules.
* Theorems: `Props.CliSign`: `C42_checks_sound`, `C42_checks_iff`; `Props.CliSignJobs`: `C42_fails_early`, `C42_sign_keeps_files`, `C42_attest_fails_early`, `C42_attest_keeps_files`; `Props.CliSignFrame`: `C42_sign_only_outputs`, `C42_attest_only_outputs`; `Props.SignFailures`: `C42_checks_fail`, `C42_threads_fail`.
* Note: nobody else changes the disk meanwhile; whether a write to an opened file fails depends on the file and on how much was written.

### C43 Concurrent signing gives each input its own bundle, for every schedule (partial)

* Modelled: as C42: every thread may be interrupted at each read, call and written byte.
* Proof: invariant over an arbitrary schedule; a run with an output that is an input refutes the general claim.
* Theorems: `Props.CliSignCommands`: `C43_own_bundle`, `C43_own_bundle_overwrite_partial`; `Props.CliSignExamples`: `C43_output_is_input`.
* Note: complete without --overwrite, for all interleavings of the worker threads; with --overwrite the code lets an output be another input (refuted by a concrete run), excluded by a hypothesis.

### C44 `verify` exits successfully only if every input was verified (proved)

* Modelled: `Model.CliVerify`; `Spec.CliVerify` states what the command line demands.
* Proof: iff of the whole command with the specification; `Lemmas.NoExit` shows that nothing exits with 0 early.
* Theorems: `Props.CliExit`: `C44_returns_iff`; `Props.CliExitStatus`: `C44_exit_zero_iff`, `C44_exit_zero_sound`.
* Note: hypothesis: external libraries do not call sys.exit(0) themselves.

### C45 `sha256:` arguments denote exactly the given digest (partial)

* Modelled: `Model.CliVerify.fileOrDigest`.
* Proof: exact description of the accepted texts; refutations for separators and blanks.
* Theorems: `Props.CliVerify`: `C45_not_exact`, `C45_argument_iff`, `C45_digest_partial`.
* Note: the full claim is false of the code (refuted for every separator and for blanks between digits); exact description proved.

### C46 `attest` with several inputs does not lose bundles (partial)

* Modelled: `Model.CliSign.attestOutputsLoop`.
* Proof: counterexample; invariant for different outputs.
* Theorems: `Props.CliSignCommands`: `C46_own_attestation_partial`; `Props.CliSignExamples`: `C46_shared_bundle`.
* Note: false of the code for `attest --bundle X a b` (refuted by a concrete run); proved if the outputs are different.

### C47 Different TUF repositories never share local state (partial)

* Modelled: `Model.Tuf`: directories of a URL; `Model.Url.quote`.
* Proof: injectivity of percent-encoding byte by byte; witnesses for the three exceptional URLs.
* Theorems: `Props.Tuf`: `C47_quote_injective`, `C47_quote_byte`, `C47_quote_unreserved`, `C47_embedded_names`, `C47_degenerate_urls`, `C47_dirs_partial`.
* Note: false of the code for the URLs '', '.' and '..' (refuted); proved for all others.

### C48 TUF: online uses only verified targets, offline never touches the network (partial)

* Modelled: `Model.Tuf`: `TrustUpdater`.
* Proof: cases over the modes; a trace of network calls is empty offline.
* Theorems: `Props.Tuf`: `C48_cache_kept`, `C48_offline`, `C48_online`, `C48_remembered`, `C48_leaks`, `C48_tuf_error_partial`.
* Note: proved, except for the class of exceptions online: those of get_targetinfo are not turned into TUFError (refuted).

### C49 Searching Rekor returns the oldest entry, or None if there is none (partial)

* Modelled: `Model.RekorClient`.
* Proof: minimum of a fold; refuted for error statuses.
* Theorems: `Props.RekorClient`: `C49_oldest_partial`, `C49_not_found_raises`; `Props.Http`: `C49_search_http_iff`.
* Note: the part about HTTP 404 is false of the code (refuted for every error status).

### C50 Fetching a log entry takes exactly one of uuid or index (partial)

* Modelled: `Model.RekorClient`.
* Proof: complete case table; refuted for index 0.
* Theorems: `Props.RekorClient`: `C50_refuted`, `C50_query_partial`, `C50_query_iff`.
* Note: false of the code for index 0 and the empty uuid; complete description proved.

### C51 Streaming digests equal whole-content digests (proved)

* Modelled: `Model.Hashing`: `sha256_digest` by chunks.
* Proof: induction over the chunks.
* Theorems: `Props.Hashing`: `C51_stream_digest`, `C51_chunking_irrelevant`, `C51_hashed_unchanged`, `C51_no_collision`.

### C52 Key algorithm selection is total on supported keys and consistent (proved)

* Modelled: `Model.KeyDetails`.
* Proof: cases over keys and details.
* Theorems: `Props.KeyDetails`: `C52_selection_iff`, `C52_unsupported`, `C52_prehash`, `C52_registry_functional`.

### C53 An attestation matches an artifact only through an exact subject digest (proved)

* Modelled: `Model.Dsse.matchesDigest` and the loop of the command.
* Proof: iff over subjects and digests.
* Theorems: `Props.Dsse`: `C53_matches_iff`; `Props.CliExit`: `C53_attestation_iff`, `C53_mismatch`.

### C54 Hash and byte encodings used for identifiers are lossless (proved)

* Modelled: `Prelude.Hex`, `Prelude.Base64`, `Prelude.Decimal`.
* Proof: round trips and injectivity by induction.
* Theorems: `Props.Codecs`: `C54_base64_roundtrip`, `C54_base64_injective`, `C54_base64_length`, `C54_hex_roundtrip`, `C54_hex_injective`, `C54_hex_shape`, `C54_utf8_exact`, `C54_utf8_injective`.

### C55 What signing submits to Rekor is what verification expects (proved)

* Modelled: `Model.RekorRequest`, `Model.Verifier`; `Spec.Rekor` states what a log records.
* Proof: iff between recorded bodies and validated bodies.
* Theorems: `Props.RekorRequest`: `C55_artifact_entry_iff`, `C55_dsse_entry_iff`, `C55_recorded_unique`, `C55_recordable`.
* Note: what an honest log records is specified in Spec/Rekor.

### C56 HTTP sessions are never shared between threads (proved)

* Modelled: `Model.RekorClient`: thread-local sessions.
* Proof: invariant over arbitrary schedules.
* Theorems: `Props.RekorClient`: `C56_sessions_not_shared`.

### C57 A log entry verifies iff inclusion, checkpoint and (if usable) SET all verify (proved)

* Modelled: `Model.LogEntry.verify`.
* Proof: iff composed of C02, C05, C08, C10.
* Theorems: `Props.LogEntry`: `C57_entry_verifies_iff`, `C57_missing_proof`, `C57_verified_entry_is_logged`.
* Note: composes C02, C05, C10.

### C58 Trust configuration chosen by the CLI (proved)

* Modelled: `Model.CliTrust`.
* Proof: case table over the options, iff.
* Theorems: `Props.CliVerify`: `C58_one_source`, `C58_config_iff`.

### C59 A trusted EC key only loads if its curve matches its declared algorithm (partial)

* Modelled: `Model.Trust`.
* Proof: counterexample key; partial for the family.
* Theorems: `Props.Trust`: `C59_curve_not_checked`, `C59_ec_family_partial`.
* Note: the full claim is false of the code (refuted by a concrete key); only the key family is checked.

### C60 A leaf certificate never asserts keyCertSign (partial)

* Modelled: `Model.CertUtils.certIsLeaf`.
* Proof: counterexample; partial with BasicConstraints.
* Theorems: `Props.CertUtils`: `C60_keyCertSign_leaf`, `C60_leaf_not_keyCertSign_partial`.
* Note: the full claim is false of the code (refuted by a concrete certificate without BasicConstraints).

### C61 The DSSE pre-authentication encoding follows the DSSE specification (partial)

* Modelled: `Model.Dsse.pae`; `Spec.Dsse` counts bytes.
* Proof: equal iff the number of characters is the number of bytes iff the type is ASCII.
* Theorems: `Props.Dsse`: `C61_non_ascii_mismatch`, `C61_spec_iff`, `C61_ascii_partial`.
* Note: the full claim is false of the code for non-ASCII payload types; exact characterisation proved.

### C62 Bundle construction failures surface as InvalidBundle (partial)

* Modelled: `Model.Bundle.init`.
* Proof: counterexample; bound on the exceptions by cases.
* Theorems: `Props.Bundle`: `C62_not_always_invalid_bundle`, `C62_init_errors_partial`.
* Note: the full claim is false of the code (refuted by a concrete message); the errors that can occur are classified.

### C63 fix-bundle changes nothing but a log entry that lacked its checkpoint (proved)

* Modelled: `Model.Bundle.fixBundle`.
* Proof: cases; the only changed member is the log entry.
* Theorems: `Props.Bundle`: `C63_fix_bundle_iff`.

### C64 The Fulcio client returns the leaf and a non-empty chain, or raises (proved)

* Modelled: `Model.Signer.fulcioPost`, `Model.Http`.
* Proof: iff for success and failure.
* Theorems: `Props.Signer`: `C64_fulcio_ok_iff`, `C64_fulcio_error_iff`; `Props.HttpClients`: `C64_fulcio_http_iff`; `Props.HttpErrors`: `C64_trust_bundle_iff`.

### C65 A signing context uses the selected services (proved)

* Modelled: `Model.SigningConfig`, `SigningContext.from_trust_config`.
* Proof: composition with C39.
* Theorems: `Props.SigningConfig`: `C65_signing_config_iff`, `C65_context_iff`, `C65_context_errors`.

### C66 Constructing an identity token fails only with IdentityError (partial)

* Modelled: `Model.Oidc`.
* Proof: counterexamples; partial for claims of the expected types.
* Theorems: `Props.Oidc`: `C66_leaks_type_error`, `C66_identity_error_partial`.
* Note: the full claim is false of the code (refuted by concrete tokens).

### C67 A bad OAuth redirect fails with IdentityError (partial)

* Modelled: `Model.OAuth`.
* Proof: counterexamples; partial if the parameters are present; for the out-of-band flow an invariant over all schedules.
* Theorems: `Props.OAuth`: `C67_empty_redirect_key_error`, `C67_identity_error_partial`, `C67_foreign_identity_error`, `C67_out_of_band_partial`.
* Note: the full claim is false of the code (refuted by concrete requests): a missing parameter raises `KeyError`, and a request for `/` before the out-of-band flow starts raises the `IdentityError` of another package, which `main` does not handle; proved if the parameters are present and nobody asks for `/`.

### C68 Reading an entry from a Rekor v1 response is faithful (proved)

* Modelled: `Model.RekorClient.fromV1Response`.
* Proof: base64 and hex round trips, cases.
* Theorems: `Props.RekorClient`: `C68_roundtrip`, `C68_accepted`; `Props.Http`: `C68_json_iff`, `C68_json_roundtrip`.

### C69 `verify --offline` stays offline (proved)

* Modelled: `Model.CliVerify`, `Model.Tuf`.
* Proof: no path of the offline command reaches the network.
* Theorems: `Props.CliExitStatus`: `C69_offline`.

### C70 Trust material of an unknown format is rejected (partial)

* Modelled: `Model.CliTrust`.
* Proof: refuted for the configuration's own type; proved for the root.
* Theorems: `Props.CliExitStatus`: `C70_config_type_ignored`, `C70_root_type_partial`; `Props.SignFailures`: `C70_root_type_error`.
* Note: false of the code for the configuration's own type (refuted for every type); proved for the trusted root in it.

### C71 A successful multi-file `sign` leaves a bundle for each input (partial)

* Modelled: `Model.CliSign`.
* Proof: counterexample; invariant for different outputs.
* Theorems: `Props.CliSignCommands`: `C71_bundle_for_each_partial`, `C71_default_output_injective`; `Props.CliSignExamples`: `C71_same_names_collide`.
* Note: false of the code for --output-directory with equal file names (refuted by a concrete run).

### C72 Identity precedence without silent fallback (proved)

* Modelled: `Model.CliSign.signIdentity`.
* Proof: case table, iff.
* Theorems: `Props.CliSignCommands`: `C72_identity_iff`, `C72_no_fallback`.

### C73 Accepted attestations are authentic (proved)

* Modelled: `Model.Verifier`; `Spec.World`: a history of logins, signatures and log entries, and what trust in each service means.
* Proof: composition of C05, C07–C09, C13, C14, C16, C02, C26, C22; worlds meeting all hypotheses in `Props.WorldExamples`.
* Theorems: `Props.World`: `C73_dsse_authentic`.
* Note: trust in the services and in the signature scheme is a hypothesis (Spec.World); extension OIDs of a certificate do not repeat; the issuer text is shorter than 4 GiB.

### C74 Accepted artifact signatures are authentic (partial)

* Modelled: as C73.
* Proof: as C73; refuted for bundles with an envelope as well.
* Theorems: `Props.WorldExamples`: `C74_timestamp_of_another_signature`; `Props.World`: `C74_artifact_authentic_partial`.
* Note: false of the code for bundles that also hold an envelope (refuted: timestamps are checked against the envelope's signature); proved without an envelope, or with a time from the log.

### C75 Promises of a log cannot be reused for something else (proved)

* Modelled: as C73.
* Proof: injectivity of the signed payloads (C08).
* Theorems: `Props.World`: `C75_promise_is_no_checkpoint`, `C75_promise_is_no_sct`.

### C76 Accepted bundles are public (proved)

* Modelled: as C73.
* Proof: C02 and C05 applied to an append-only log.
* Theorems: `Props.World`: `C76_artifact_is_public`, `C76_dsse_is_public`.
* Note: trust in the logs and absence of collisions among the strings hashed are hypotheses.

### C77 Accepted certificates are public (proved)

* Modelled: as C73.
* Proof: C27 and C26 applied to CT logs.
* Theorems: `Props.World`: `C77_certificate_is_public`.
* Note: trust in the CT logs is a hypothesis.

### C78 Accepted once, accepted later (partial)

* Modelled: `Model.Verifier` at two times; `Spec.Growth`.
* Proof: every part of acceptance is monotone under the hypotheses; counterexample in `Props.GrowthExamples`.
* Theorems: `Props.GrowthExamples`: `C78_rejected_later`; `Props.Growth`: `C78_artifact_stays_accepted_partial`, `C78_dsse_stays_accepted_partial`.
* Note: false of the code: when a further timestamp authority's period starts, further timestamps of the bundle count, and each has to be within the certificate's validity (refuted by a concrete run); proved when the certificate authorities had started, no timestamp is from the future, and the bundle names its logs' keys by known, unambiguous ids.

### C79 Adding trust keeps old bundles verifiable (partial)

* Modelled: `Model.Verifier` with two trusted roots; `Spec.Growth`.
* Proof: as C78.
* Theorems: `Props.GrowthExamples`: `C79_rejected_with_more_trust`; `Props.Growth`: `C79_artifact_stays_accepted_partial`, `C79_dsse_stays_accepted_partial`.
* Note: false of the code for the same reason (refuted); proved when added authorities vouch for no further timestamp of the bundle, added keys have other ids, and the chain built stays the same.

### C80 An HTTP error status never yields data (proved)

* Modelled: `Model.Http`: clients on arbitrary responses.
* Proof: each client as an iff over what the response describes; composed with the signer.
* Theorems: `Props.Http`: `C80_error_status_raises`, `C80_rekor_ok_iff`, `C80_rekor_get_ok_iff`, `C80_rekor_v2_ok_iff`, `C80_log_info_ok_iff`; `Props.HttpClients`: `C80_signed_bundle`.
* Note: pydantic, `from_dict` of Rekor v2 and the conversion of numbers by protobuf's JSON reader are parameters.

### C81 Fulcio failures surface as FulcioClientError with the server's message (partial)

* Modelled: `Model.Http`: Fulcio.
* Proof: refutations; iff for `FulcioClientError`.
* Theorems: `Props.HttpClients`: `C81_other_exceptions`, `C81_message_lost`, `C81_fulcio_error_iff_partial`.
* Note: false of the code: connection errors, non-JSON bodies, members of other types and unloadable certificates raise other exceptions, and the server's message is never in the error because an error response is falsy (refuted); proved: exactly when FulcioClientError is raised.

### C82 Timestamp requests fail only with TimestampError (proved)

* Modelled: `Model.Http`: timestamp client.
* Proof: cases.
* Theorems: `Props.HttpClients`: `C82_timestamp_ok_iff`, `C82_timestamp_error_only`.

### C83 Issuer failures surface as IssuerError (partial)

* Modelled: `Model.Http`: `Issuer.__init__`.
* Proof: cases; refutation for the other exceptions of `requests`.
* Theorems: `Props.HttpClients`: `C83_other_exceptions`, `C83_issuer_ok_iff`, `C83_issuer_error_partial`.
* Note: false of the code: other exceptions of `requests` pass (refuted); proved for the success case and for the exceptions that the code handles.

### C84 An identity token comes only from a matching redirect and a granted token response (proved)

* Modelled: `Model.Http`, `Model.OAuth`.
* Proof: composition with C41.
* Theorems: `Props.HttpClients`: `C84_exchange_ok_iff`, `C84_browser_token`, `C84_browser_outcome`.

### C85 Token exchange failures are IdentityError or NetworkError (partial)

* Modelled: `Model.Http`: token exchange.
* Proof: cases; refutations.
* Theorems: `Props.HttpClients`: `C85_other_exceptions`, `C85_exchange_error_partial`.
* Note: false of the code: a body that is no JSON object raises JSONDecodeError or AttributeError, and an object without `error` and `access_token` KeyError (refuted); proved if the body is an object with one of the two.

### C86 Accepted payloads are in-toto v1 statements (partial)

* Modelled: `Model.Statement`; `Spec.InToto`.
* Proof: iff over the members of the document; refutations for attribute names.
* Theorems: `Props.Statement`: `C86_python_names`, `C86_unnamed_subject`, `C86_statement_iff_partial`, `C86_read_partial`, `C86_unambiguous`, `C86_dump_iff`.
* Note: false of the code: the names of the Python attributes are accepted instead of the members of the specification, and subjects need a member `name` (both refuted); an iff for the other documents.

### C87 What attest signs (proved)

* Modelled: `Model.CliSign` with `Model.Statement` and `Model.Slsa`.
* Proof: C46, C53, C86 and C88 composed.
* Theorems: `Props.Statement`: `C87_attested_document`, `C87_invalid_predicate`.
* Note: that the outputs are at different places is part of the property; C46 shows what happens otherwise.

### C88 The predicates attest accepts are SLSA provenance (partial)

* Modelled: `Model.Slsa`; `Spec.InToto`.
* Proof: each class as an iff over members; refutations.
* Theorems: `Props.Slsa`: `C88_v0_2_iff_partial`, `C88_v1_iff_partial`, `C88_common_partial`, `C88_content_rejected`, `C88_loose_boolean`.
* Note: false of the code: contents of resources are always rejected, and texts and numbers are accepted as booleans (both refuted); an exact description of what is accepted, and an iff with the specification outside these two.

### C89 Command lines and environments mean what the documentation says (proved)

* Modelled: `Model.Args`, `Model.CliMain`; `Spec.Args` has the documented options.
* Proof: tables compared by the kernel; induction over the occurrences on a line.
* Theorems: `Props.Args`: `C89_accepted_iff`, `C89_rejected`; `Props.CliMain`: `C89_sign`, `C89_attest`, `C89_verify_identity`, `C89_verify_github`, `C89_get_identity_token`, `C89_trust_instance`, `C89_fix_bundle`, `C89_update_trust_root`, `C89_given_decides`, `C89_total`, `C89_bad_version`, `C89_bad_predicate_type`.
* Note: about lines of options with values; how words are read as such a line is C115.

### C90 Environment variables and -v have the documented effect (partial)

* Modelled: as C89.
* Proof: refuted for all environments; which `-v` count.
* Theorems: `Props.CliMain`: `C90_identity_variables_ignored`, `C90_malformed_switch`, `C90_empty_switch`, `C90_early_verbose_ignored`; `Props.Args`: `C90_verbosity_partial`.
* Note: false of the code in all three respects (each refuted for all environments and lines); proved: which -v count.

### C91 Exit status 0 of the whole program `sigstore verify` (partial)

* Modelled: as C89 with `Model.CliVerify`.
* Proof: C44, C22 and C25 composed with C89.
* Theorems: `Props.CliMain`: `C91_verify_identity_partial`, `C91_verify_github`.
* Note: complete for `verify github`; for `verify identity` an empty issuer on the line is not checked (C22); hypotheses: libraries do not call sys.exit(0), and the extension OIDs of a certificate do not repeat.

### C92 Verbosity does not change outcomes, and sigstore's errors never escape (proved)

* Modelled: `Model.CliMain.main`.
* Proof: two lines that differ in `-v` only have the same meaning; case split over commands.
* Theorems: `Props.CliMain`: `C92_no_uncaught_sigstore_error`, `C92_verbose_changes_nothing`.

### C93 fix-bundle never loses a bundle (partial)

* Modelled: `Model.CliMain.fixBundleMain`.
* Proof: C63 with the disk; induction over bytes written; refuted for other encodings.
* Theorems: `Props.FixBundleFile`: `C93_print_iff`, `C93_in_place_iff`, `C93_in_place_failure_partial`, `C93_in_place_destroys`, `C93_in_place_truncates`, `C93_only_that_file`, `C93_idempotent`, `C93_instance_ignored`.
* Note: false of the code: a text that the encoding of the locale does not have destroys the file, a write that fails truncates it, and --instance and --trust-config are ignored (all refuted); proved: everything else.

### C94 Exit status 0 means that the command completed (proved)

* Modelled: `Model.CliMain.main` with all commands.
* Proof: no step raises `SystemExit(0)`, by cases per function and induction over loops and schedules.
* Theorems: `Props.CliMainStatus`: `C94_exit_zero_iff`, `C94_sign`, `C94_attest`.
* Note: that no library and no service calls sys.exit(0) is a hypothesis (Props.WorldDoesNotExit).

### C95 The content of an input does not leave the machine (proved)

* Modelled: `Model.CliSign`, `Model.CliVerify`.
* Proof: simulation between two runs whose disks differ in inputs of equal digest.
* Theorems: `Props.CliSignPrivacy`: `C95_sign`, `C95_attest`, `C95_verify`.
* Note: the trust configuration, the predicate and the verification materials are not themselves inputs; timing is not modelled.

### C96 The identity token is sent to Fulcio only (proved)

* Modelled: `Model.Traffic`: requests of a session.
* Proof: simulation between two sessions with different tokens.
* Theorems: `Props.Traffic`: `C96_token_only_to_fulcio`.
* Note: requests are what the code passes to `requests`; redirects, proxies and .netrc are not modelled; the configured Fulcio URL is http(s)://authority followed by nothing, /, ? or #.

### C97 Nothing is published before the certificate is checked (proved)

* Modelled: `Model.Traffic`.
* Proof: decomposition of the trace of each call, induction over calls; refinement to `Model.Signer`.
* Theorems: `Props.Traffic`: `C97_call`, `C97_session`, `C97_refines`.
* Note: loading a certificate from a text of one character fails (hypothesis PemLoader; needed because a text is accepted where an array is expected).

### C98 The authorization request is well-formed and its answer is authenticated (partial)

* Modelled: `Model.Url`, `Model.OAuth`; forms in `Spec.Url`.
* Proof: uniqueness of decoding; `parse_qs` inverts `urlencode`; refuted for endpoints with a query.
* Theorems: `Props.OAuthUrl`: `C98_authorization_url_partial`, `C98_endpoint_with_query`, `C98_form_unique`, `C98_urlencode`, `C98_query_unique`, `C98_code_verifier`, `C98_code_challenge`, `C98_redirect_iff`.
* Note: false of the code for authorization endpoints with a query component, which RFC 6749 allows (refuted for all of them); proved for the others; randomness is a parameter.

### C99 Endpoints are below the configured URLs (partial)

* Modelled: `Model.Url` (urlsplit, urlunparse, urljoin).
* Proof: computation on URLs made of origin, segments and slashes.
* Theorems: `Props.Url`: `C99_fulcio_origin`, `C99_fulcio_iff`, `C99_rekor_iff`, `C99_issuer`, `C99_issuer_dots`, `C99_tuf_targets`.
* Note: false of the code for Fulcio URLs with a path (the path is dropped) and Rekor URLs with a trailing slash (doubled), each an iff; proved for OIDC issuers and TUF targets; the Fulcio endpoint is always at the configured origin.

### C100 Unusable arguments are refused with exit status 2 before anything happens (proved)

* Modelled: `Model.CliSign`, `Model.CliVerify`, `Model.CliMain`; `Spec.Usage`.
* Proof: the checks fail with status 2 only, and whenever the specification is not met.
* Theorems: `Props.CliUsage`: `C100_verify`, `C100_verify_not_refused`, `C100_sign`, `C100_attest`, `C100_main_verify_identity`, `C100_main_verify_github`, `C100_main_sign`, `C100_main_attest`, `C100_main_trust_instance`, `C100_main_trust_instance_not_refused`.
* Note: status 2 for sign needs that output directories can be made, for attest that the predicate file is readable text (else OSError or UnicodeDecodeError).

### C101 Failures of Rekor surface as RekorClientError (partial)

* Modelled: `Model.Http`: Rekor clients.
* Proof: iff for error statuses; bound on exceptions by walking through every read of the document.
* Theorems: `Props.HttpErrors`: `C101_rekor_error_iff_partial`, `C101_malformed`, `C101_other_exceptions`.
* Note: false of the code for connection errors and malformed answers: RekorClientError is raised exactly for error statuses, and the exceptions of malformed answers are bounded and exhibited.

### C102 What sigstore sign and attest leave behind is accepted by sigstore verify (proved)

* Modelled: `Model.CliSign`, `Model.CliVerify`, `Model.CliMain`; `Spec.Roundtrip`.
* Proof: files left by a run hold bundles the signer made (invariant over schedules); C38 and C89; `Props.CliRoundtripExamples` meets all hypotheses at once.
* Theorems: `Props.CliRoundtrip`: `C102_sign`, `C102_attest`, `C102_main_sign`, `C102_main_attest`; `Props.CliRoundtripMain`: `C102_main_sign_any`, `C102_main_attest_any`.
* Note: hypotheses in Spec.Roundtrip: signatures made are accepted, JSON of bundles and statements is read back, the services are honest (SCTs dated between 2004 and 2038, see C38).

### C103 Signing several files ends, and succeeds if everything is in place (proved)

* Modelled: `Model.CliSign`; `Spec.SignReady`.
* Proof: a measure on each thread decreases with every turn; an invariant over schedules excludes failures.
* Theorems: `Props.CliFair`: `C103_sign_ends`, `C103_attest_ends`; `Props.CliComplete`: `C103_sign_never_fails`, `C103_sign_succeeds`, `C103_attest_never_fails`, `C103_attest_succeeds`.
* Note: the steps of threads are those of Model.CliSign (service calls return; a call that blocks for ever is not modelled); hypotheses for success in Spec.SignReady.

### C104 Exactly which exceptions verification raises (proved)

* Modelled: `Model.Verifier`, `Model.Policy`; lists in `Spec.Raises`.
* Proof: bound by cases per function (`Lemmas.Raises`) and induction over lists and policies; a reachable witness for every exception, evaluated by the kernel.
* Theorems: `Props.Raises`: `C104_artifact_bound`, `C104_dsse_bound`, `C104_policy_iff`, `C104_artifact_iff`, `C104_dsse_iff`, `C104_key_kind`, `C104_key_kind_dsse`.
* Note: exceptions of libraries are those of the model (DESIGN.md); a struct.error needs a certificate with an SCT extension of more than 65535 bytes, an OverflowError a log time of more than 63 bits, which parsers may exclude.

### C105 What was signed verifies with detached materials (proved)

* Modelled: `Model.CliSign`, `Model.CliVerify`, `Model.CliMain`; requests in `Spec.Detached`.
* Proof: signing leaves what it made (frame over the schedule of threads), base64 and PEM text are read back, the hashedrekord asked for is the one logged, and verification of the assembled bundle is C102's; then lifted to command lines.
* Theorems: `Props.Detached`: `C105_sign`; `Props.CliRoundtripMain`: `C105_main_sign`.
* Note: hypotheses in Spec.Detached and Spec.Roundtrip: signatures made are accepted, PEM text is read back as the certificate, the services are honest, and the log search returns an entry as the log keeps it.

### C106 What `sigstore verify` reports is what it verified (proved)

* Modelled: `Model.CliReport`; `Spec.Report`.
* Proof: a model of the run with its output, proved to be `verifyMain` when the output is forgotten; induction over the inputs, the keys of a dictionary built by insertion, `str` of a path read back by the path parser, `repr` of bytes as a literal with the grammar of the specification.
* Theorems: `Props.CliReport`: `C106_report`, `C106_ok_sound`, `C106_stdout_sound`, `C106_fail_sound`, `C106_not_both`, `C106_success`, `C106_github_not_statement`.
* Note: records below WARNING, the warning about old bundle names and the text of diagnostics are left out; the bytes literal printed by `verify github` is recorded in DESIGN.md as a disagreement with the intent.

### C107 A failed verification says so unless it is told to be silent (proved)

* Modelled: `Model.CliReport`; `Spec.Logging`.
* Proof: the effective level by cases over the known names, and the levels of everything that C106 says can be written; the silent failure is a run.
* Theorems: `Props.CliLogging`: `C107_unknown_level`, `C107_same_run`, `C107_all_written`, `C107_errors_written`, `C107_silenced`; `Props.CliReportExamples`: `C107_silent_failure`.
* Note: `str.upper` is a parameter that keeps INFO; the handler of the root logger is taken to write every record it gets.

### C108 What `sigstore sign` and `sigstore attest` announce is true (partial)

* Modelled: `Model.SignReport` beside `Model.CliSign`; `Spec.SignReport`.
* Proof: the run with its output is proved to be the run when the output is forgotten; an invariant over all schedules relates the records of each thread with its program counter, and, when it is done, with the bundle in its outputs; the keys of the output map are the inputs in order of first mention; the counterexamples are runs.
* Theorems: `Props.SignReport`: `C108_sign_report`, `C108_attest_report`, `C108_sign_announced_partial`, `C108_attest_announced_partial`; `Props.SignReportExamples`: `C108_announced_lost`, `C108_unannounced`.
* Note: the last sentence needs that outputs lead to different places and not to inputs: `sign --output-directory out d/a e/a` announces a bundle that was replaced (`C108_announced_lost`); records of other modules than _cli.py are left out.

### C109 Exactly which exceptions signing raises (proved)

* Modelled: `Model.Traffic`, `Model.Http`, `Model.Sct`, `Model.Bundle`; `Spec.SignRaises`.
* Proof: the exceptions of every step are bounded and the bounds composed along the monad; for every exception on the lists a context and services are given for which the run is evaluated (`struct.error` for an SCT of arbitrary length from 2^16).
* Theorems: `Props.SignRaises`: `C109_init_bound`, `C109_artifact_bound`, `C109_dsse_bound`; `Props.SignRaisesExact`: `C109_init_iff`, `C109_artifact_iff`, `C109_dsse_iff`, `C109_foreign`.
* Note: assumes that `session.post` raises nothing but `requests`' exceptions, that signatures are not empty, and that a timestamp response that was decoded once decodes again.

### C110 What a bundle brings along without evidence does not influence verification (proved)

* Modelled: `Model.Bundle`, `Model.Verifier`; `Spec.Evidence`: which parts of a message are evidence.
* Proof: the leaf and the entry of a constructed bundle are those of its message; every step of verification is rewritten for the other bundle.
* Theorems: `Props.Evidence`: `C110_evidence_only`.

### C111 What the log entry of an accepted bundle states was signed by a log (partial)

* Modelled: `Model.Bundle`, `Model.Verifier`; `Spec.Evidence`.
* Proof: a restated bundle is constructed like the original, and C110 carries the outcome over; the other direction reads the key that accepted the promise off the entry check.
* Theorems: `Props.Evidence`: `C111_promised_partial`, `C111_unsupported`, `C111_forged`.
* Note: false of the code for entries without a promise or without a time: any position and time may be stated (refuted for all such bundles); proved for entries with a promise and a time.

### C112 A signed artifact is no attestation (partial)

* Modelled: `Model.Verifier`, `Model.Dsse`; `Spec.Confusion`: the bundle of an attestation around the evidence for an artifact.
* Proof: what each of the two functions requires of the body of the entry is extracted and compared; the steps that both have in common do not see the difference; a concrete case is evaluated.
* Theorems: `Props.Confusion`: `C112_same_entry_partial`, `C112_other_documents_partial`, `C112_artifact_as_attestation`, `C112_smuggled`.
* Note: false of the code for Rekor v2 entries and artifacts that are the encoding of an attestation (refuted for all of them with P-256 keys: the attestation is accepted with the artifact's evidence); proved: these are the only ones, absent collisions; the parsers of entry bodies are assumed to read the same kind and version.

### C113 get-identity-token prints the token that signing uses (proved)

* Modelled: `Model.CliMain.getIdentityTokenMain`, `Model.CliSign.signIdentity`; `Spec.IdentityCommand`.
* Proof: case analysis; the identity is characterised by `IdentityFrom` (C72).
* Theorems: `Props.IdentityCommand`: `C113_prints_iff`, `C113_failure`, `C113_same_identity`, `C113_main`.
* Note: how tokens are made from texts is assumed as in oidc.py:70-158,366 (MakesTokens).

### C114 Offline runs use what the last online run obtained (proved)

* Modelled: `Model.Tuf`, `Model.CliTrust`, `Model.CliMain.updateTrustRootMain`; `Spec.Update`: sequences of runs.
* Proof: invariant over the list of runs: the two files of the instance keep their content.
* Theorems: `Props.Update`: `C114_offline_follows`, `C114_commands`, `C114_torn`; `Props.IdentityCommand`: `C114_update_iff`, `C114_update_then_offline`.
* Note: C114_torn shows the limit: an online run that fails after it has replaced the trusted root leaves a pair of files from two different updates, which offline runs use; the client library is assumed to put targets where it says; URLs without a directory of their own (C47) are excluded.

### C115 Which words are a command line, and which one (proved)

* Modelled: `Model.Argv`: the two passes of argparse on each of three parsers; `Spec.Argv`: a grammar.
* Proof: the model refines the grammar: soundness by induction over the words with the phase of the positional arguments, completeness by induction over derivations; the tables of options by evaluation.
* Theorems: `Props.Argv`: `C115_parsed_iff`, `C115_accepted_iff`, `C115_one_reading`, `C115_main`, `C115_rejected`.
* Note: argparse is that of Python 3.11; which words are negative numbers is a parameter; conversions by `type` and `choices` come after parsing.

### C116 Protected command lines mean what they say, whatever the values are (proved)

* Modelled: `Model.Argv`, `Model.CliMain`; `Spec.Argv.writeLine`.
* Proof: a derivation in the grammar of C115 for the written words; then C91; the counterexample by evaluation for all identities and issuers.
* Theorems: `Props.ArgvSafe`: `C116_writes`, `C116_written_line`, `C116_verify_identity`, `C116_unprotected_name`.
* Note: the issuer must not be empty (see C22).

### C117 The PKCE verifier goes to the token endpoint only (partial)

* Modelled: `Model.OAuthTraffic`: the machine of C41 with its outputs.
* Proof: two runs with hash functions that agree on the two verifiers put out the same events up to the token request, by induction over the schedule; the log line by evaluation for every run.
* Theorems: `Props.OAuthTraffic`: `C117_verifier_partial`, `C117_token_request`, `C117_verifier_logged`.
* Note: false with -vv: `logging.debug(PAYLOAD=…)` at oidc.py:343 writes the authorization code and the verifier to the root logger; proved for all levels of the package's logger as long as the root logger does not write debug messages.

### C118 The client secret goes to the token endpoint only (partial)

* Modelled: `Model.OAuthTraffic`, `Model.Url`.
* Proof: two runs with different secrets put out events that differ in the URL's parameter and the password only, by induction over the schedule; C98 reads the secret back from every URL that is handed out.
* Theorems: `Props.OAuthTraffic`: `C118_secret_partial`, `C118_secret_in_url`, `C118_url_printed`.
* Note: false: `client_secret` is a parameter of the authorization URL (oauth.py:227-237), which is printed on the screen or given to whoever asks the local server; proved that it appears in that URL and in the token request only.

### C119 How the local server answers each request (proved)

* Modelled: `Model.OAuthTraffic`; `Spec.OAuthTraffic.answerTo`.
* Proof: invariant by induction over the schedule: the answers so far are those to the requests done, at most one request is pending; progress by a measure of at most four steps per request.
* Theorems: `Props.OAuthTraffic`: `C119_answers`, `C119_all_answered`, `C119_once`.
* Note: of responses only the status and `Location`; targets on which `urlsplit` raises are not considered.

### C120 Credentials given by options or the environment are not shown (partial)

* Modelled: `Model.Shown`: `repr` of the parsed arguments, and the defaults in the help.
* Proof: for every credential of plain characters it is an infix of the line, through C89's meaning of options; the level by cases.
* Theorems: `Props.Shown`: `C120_written_iff_partial`, `C120_logged`, `C120_help`.
* Note: false: with -v (or SIGSTORE_LOGLEVEL=debug) `parsed arguments …` is logged with both (_cli.py:639), and `--help` shows the values of the environment variables as defaults; proved when the line is written.

### C121 Evidence counts only from signers that were trusted when they made it (partial)

* Modelled: the verifier of C16-C20; `Spec.Periods`.
* Proof: for timestamps from the soundness of `tsaTimes`; for the rest two verifiers whose roots differ in the periods only (not in what has started) are proved to agree on all bundles, and a bundle is exhibited that is accepted with all periods over before, and with none begun at, the time that counts.
* Theorems: `Props.Periods`: `C121_timestamps_partial`, `C121_periods_ignored`, `C121_outside_periods`.
* Note: false of logs and certificate authorities: in verification the end of their periods is not looked at and the start is compared with the clock (`is_timerange_valid(…, allow_expired=True)`, _utils.py:360-379, models.py:846-849 and 883), never with the time of the evidence; proved for timestamp authorities.

### C122 Any bundle causes only a bounded number of expensive operations (proved)

* Modelled: `Model.Work`: the verification functions with the list of expensive operations they do.
* Proof: the functions with the list are proved to return what those of C16-C20 return, for all arguments; the bounds stage by stage, from the limit on timestamps, the size of the keyrings, and `bit_length`/popcount of 64-bit numbers.
* Theorems: `Props.Work`: `C122_artifact_result`, `C122_dsse_result`, `C122_artifact_bounded`, `C122_dsse_bounded`, `C122_hashes_exact`.
* Note: counts calls, not bytes; for indices and sizes below 2^64 (they are 64-bit fields); the timestamp responses are all decoded before they are counted.

### C123 Exit status 2 means unusable arguments, or no log entry for detached materials (proved)

* Modelled: the commands of C89-C100; `NoEntryFound`.
* Proof: every function below `main` is proved not to produce `SystemExit` itself (`Lemmas/NeverExit`), except where `_invalid_arguments` and `_fatal` are called; for `verify` an induction over the materials shows that the status is 2 exactly if the last question to the log found nothing.
* Theorems: `Props.ExitStatuses`: `C123_statuses`, `C123_verify_identity`, `C123_verify_github`, `C123_sign`, `C123_attest`, `C123_trust_instance`, `C123_others`.
* Note: the direction from usable arguments to another status than 2 needs, for `sign`, that the files can be read and written, and for `attest` that the predicate can be read as text.

### C124 Verifying several inputs at once is verifying each of them (proved)

* Modelled: `verifyMain` and `main` as for C44 and C89.
* Proof: both sides are rewritten with the characterisation of success (C44); what an input denotes and the materials found for it are shown not to depend on the other inputs.
* Theorems: `Props.Batch`: `C124_together_iff_each`, `C124_order`, `C124_main_verify_identity`, `C124_main_verify_github`.
* Note: at the level of the whole program for `--trust-config`, where the trust configuration does not depend on the state of the TUF client.

### C125 What `sigstore verify` verified is what it read, once, even while the files change (proved)

* Modelled: `Moving.verifyMain`, the same program as `verifyMain` where the n-th access to the file system sees `fs n` and is written into a log.
* Proof: induction over the loops with the log as an accumulator: each step only appends, tests are not reads, so the list of opened files is that of the options followed by that of the materials; `C125_static` is a simulation between this program and the one of C44.
* Theorems: `Props.Moving`: `C125_reads`, `C125_static`, `C125_unchanged`.
* Note: a single read returns the content of one moment; the cached files of the TUF client are not covered by this model; digesting a file is one access although the code reads it in chunks.

### C126 A verdict rests on few checks, all about what is trusted (proved)

* Modelled: `Work.verifyArtifact` and `Work.verifyDsse`, the verification with a trace of its checks (proved to have the result of the verification, C122).
* Proof: a relation between two runs: the trace of a step only grows, so agreement on the whole trace is agreement on each step, by induction over the loops; the second part is an invariant of the trace.
* Theorems: `Props.Rests`: `C126_artifact_rests`, `C126_dsse_rests`, `C126_artifact_asks`, `C126_dsse_asks`, `C126_trusted_answers`.
* Note: hash functions, decoders and the loading of keys are the same on both sides.

### C127 The command line and the library agree (proved)

* Modelled: `Library.production`, `Library.staging`, `Library.bundleFromJson` and the documented program `Library.verifyFile`, next to `verifyMain`.
* Proof: the characterisation of success (C44) and that of the verifier that the library makes are compared condition by condition.
* Theorems: `Props.Library`: `C127_artifact`, `C127_attestation`.
* Note: both programs find the same files, clock and state of the TUF client; the documented program calls `verify`, which does not exist, and `verify_artifact` is taken for it.

### C128 The clock may move during a verification (proved)

* Modelled: `MovingClock.*` repeats the functions between `is_timerange_valid` and `verify_artifact`/`verify_dsse` with a clock that gives every reading its own value.
* Proof: simulation between the two models by induction on the authorities, logs and timestamps; for what is not yet valid, between two runs on trusted roots that agree up to that.
* Theorems: `Props.MovingClock`: `C128_still`, `C128_future`.
* Note: the first theorem justifies the single reading in the rest of the model; signing and its own queries of the trusted root keep the single reading.

### C129 `sigstore sign` next to other programs that change files (partial)

* Modelled: `Cli.Shared.*`: the checks of `_sign` and its threads with arbitrary changes of the disk by others before each check, between checks and signing, and between any two steps.
* Proof: invariant of the threads over events of both kinds, for which the step lemma of C43 is reused with the moment at which each thread read its input; the race is a concrete run.
* Theorems: `Props.SharedDisk`: `C129_alone`, `C129_only_outputs`, `C129_keeps_files_partial`, `C129_own_bundle`, `C129_race`.
* Note: the first part is false: outputs are checked with `exists()` before signing and opened with mode `w` after it (`_cli.py:924-938`, `733-745`), so a file that another program (or a second `sigstore sign`) makes in between is overwritten; proved for what was there before the command.

### C130 Signing that outlasts its certificate (partial)

* Modelled: `Signer.sign` with services of `Spec.Slow`: those of C38 without any assumption about when they answer.
* Proof: C38 for the same call with services cut down to the one request that was made; the converse from C13 and C14, since every time in the bundle is a verified time.
* Theorems: `Props.Slow`: `C130_verifies_iff`, `C130_returned_anyway`, `C130_late`, `C130_in_time_partial`.
* Note: false of the code: the end of the certificate is compared with the clock once, before signing (`sign.py:157-161`), and never with the times that the timestamp authorities and the log return; a call that takes longer than the certificate's remaining life returns a bundle that is never accepted (proved in general and for a concrete run); proved if the times are in the certificate's period.

### C131 Stopping in the middle spoils no output (partial)

* Modelled: `signMain`/`attestMain` with a schedule that may end anywhere (a killed command is a run whose schedule has ended).
* Proof: a second invariant of the threads next to that of C43: what a thread has not come to is as it was; by induction over the schedule.
* Theorems: `Props.Leftover`: `C131_sign_leftover_partial`, `C131_attest_leftover_partial`, `C131_killed_loses`, `C131_full_disk`, `C131_failure_mixes`.
* Note: false of the code: outputs are truncated in place and written one after the other (`_cli.py:733-745`); a killed `sign --overwrite` can leave an empty file where the previous bundle was, one that meets a full disk a beginning of the new bundle, and a failing one the new signature next to the old bundle; proved for outputs that lead to different places other than the inputs: each is as before or a beginning of what belongs to one bundle made for the input, complete once the command has succeeded, or has failed although no write failed, and the bundle is begun only after signature and certificate are complete.

### C132 Signatures of others on a checkpoint change no verdict (partial)

* Modelled: `LogEntry.verify`, `Bundle.init`, `verifyArtifact`, `verifyDsse` with the checkpoint replaced.
* Proof: a noninterference theorem: two runs that differ only in signatures with other hints; the round trip of C07 gives the parse of both.
* Theorems: `Props.Cosigned`: `C132_cosignatures_partial`, `C132_same_hint`.
* Note: false of the code for signatures that share the four-byte key hint of the log: the first one with the hint decides (`checkpoint.py:181-195`), names are not compared; proved for every list of well-formed signatures whose members with the log's hint are the same.

### C133 Processes that share the cache of trust material (partial)

* Modelled: `step`: `from_tuf` of several processes as steps on a shared directory (`Model/TufShared.lean`).
* Proof: an invariant over all schedules (what is in the cache is as it was or an incomplete copy of the material; what each process knows at each point); invariants for offline processes; explicit executions for the refutations and for the repair.
* Theorems: `Props.TufShared`: `C133_same_material_partial`, `C133_heals`, `C133_offline_alone`, `C133_offline_fails`, `C133_stuck`, `C133_killed`, `C133_race`.
* Note: false of the code: the cache is filled from the package with `exists()` and then `write_bytes` (`tuf.py:91-94`), so a second process can overwrite a verified download before the first reads it by its path, and a process killed while filling leaves a file that offline processes never repair; proved: if the package has what the repository lists, or the files exist already, then every schedule gives every online process that succeeds exactly the listed material, and an undisturbed online process repairs any cache.

### C134 Redirects carry no secrets elsewhere (partial)

* Modelled: `follow`, `redirected`, `shouldStripAuth` of `requests` beneath the clients of `Model/Traffic.lean` (`Model/Redirects.lean`).
* Proof: a simulation between two runs with different credentials, by induction on redirects and then on the session (C96 with derived services); induction on redirects for bodies and number; an explicit service for the refutation.
* Theorems: `Props.Redirects`: `C134_token`, `C134_secret`, `C134_https`, `C134_number`, `C134_bodies_partial`, `C134_form_elsewhere`.
* Note: false of the code for what is in bodies: redirects are never turned off, so a token endpoint that redirects with 307 or 308 has the form with code and verifier sent to any URL, of any scheme; proved for the identity token and the client secret, which are in the header `Authorization`, by noninterference, and for bodies if no service redirects with 307 or 308.  How `requests` follows redirects is transcribed from release 2.32.3 of that library, which `/repo` does not pin.

### C135 A digest is of a content that the file had (partial)

* Modelled: `pieces`: what `_sha256_streaming` gets from `readinto`, if each reading of the operating system finds another content (`Model/Torn.lean`).
* Proof: induction on the readings; explicit versions for the refutation.
* Theorems: `Props.Torn`: `C135_put_together`, `C135_end`, `C135_growing_partial`, `C135_unchanged_partial`, `C135_torn`.
* Note: false of the code: a file is read in pieces without a check that it stayed the same, so a file that is rewritten in place gets the digest of the beginning of one version and the end of another (refuted for all versions and places); proved: every byte is that of some version at its place, in the order of the versions; if others only append, the digest is of a beginning of the last version that contains the first one; if nobody changes the file, it is of its content.

### C136 Statements are read back from their text (partial)

* Modelled: `write` and `readValue`: JSON text with escapes, blanks, repeated names and a limit on the depth (`Model/JsonText.lean`).
* Proof: mutual induction on documents for reading back; induction on the steps of the reader for both directions of the grammar; monotonicity in the limit for the iff.
* Theorems: `Props.JsonText`: `C136_read_back_partial`, `C136_document_iff`, `C136_too_deep`, `C136_read_iff`, `C136_one_document`, `C136_written`, `C136_attested`, `C136_attested_file`, `C136_read_again`.
* Note: false of the code for readers with a limit on the depth: a predicate that reaches the limit can be read and built into a statement, which is one deeper and is not read back (refuted for every limit from four on); proved: exactly the JSON texts of RFC 8259 up to the limit are read, each as its one document, what is written is such a text, and a built statement is read back iff it is not deeper than the limit, and otherwise refused, never read as another one. The reader and writer are those of pydantic, which was not available: that they behave as modelled, that there is a limit, and that the writer has no lower one, are assumptions; the text of numbers that are no integers is a parameter.
