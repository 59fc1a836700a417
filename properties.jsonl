{"id": "C01", "title": "Every honest inclusion proof is accepted", "statement": "For every transparency log of any size and every entry in it, the RFC 6962 audit path of that entry against the log's RFC 6962 tree head is accepted by the inclusion-proof check.", "quantifier": "all lists of leaves, all indices below the list length, all hash functions", "why_tests_cant": "Tree size and index are unbounded and the shape of the path depends on the binary expansion of both; tests only exercise a few recorded proofs.", "anchors": ["sigstore/_internal/merkle.py:verify_merkle_inclusion", "sigstore/_internal/merkle.py:_decomp_inclusion_proof", "sigstore/_internal/merkle.py:_chain_inner", "sigstore/_internal/merkle.py:_chain_border_right"]}
{"id": "C02", "title": "An accepted inclusion proof identifies the leaf", "statement": "If the inclusion-proof check accepts an entry for index i and size n with i < n against the RFC 6962 head of a log of n leaves, then the entry's body is exactly leaf i of the log, unless two different byte strings among those actually hashed while building that log's head and checking the proof have the same SHA-256 digest. Without knowing that the sizes agree, the body is still some leaf of the log provided the leaf/node domain separation holds on those same strings.", "quantifier": "all logs, all proofs (any list of byte strings of any lengths), all indices and sizes, all bodies", "why_tests_cant": "Quantifies over every adversarial proof; a test can only show that particular forgeries are rejected.", "anchors": ["sigstore/_internal/merkle.py:verify_merkle_inclusion", "sigstore/_internal/merkle.py:_hash_leaf", "sigstore/_internal/merkle.py:_hash_children"]}
{"id": "C03", "title": "Inclusion proofs have exactly one admissible length", "statement": "An accepted proof for index i < n in a tree of size n carries exactly as many hashes as the RFC 6962 audit path has; one hash more or less is always rejected with VerificationError.", "quantifier": "all indices, sizes and hash lists", "why_tests_cant": "The length depends on all bits of index and size; exhaustive testing is impossible.", "anchors": ["sigstore/_internal/merkle.py:verify_merkle_inclusion", "sigstore/_internal/merkle.py:_decomp_inclusion_proof"]}
{"id": "C04", "title": "A verified entry's claimed log position is inside the tree the log signed", "statement": "If verification of a log entry succeeds then the proof's log index is smaller than the proof's tree size and the tree size is the size stated in the signed checkpoint.", "quantifier": "all log entries, keyrings and hash functions", "why_tests_cant": "A universally quantified negative; tests only see honest bundles, where the fields always agree.", "anchors": ["sigstore/_internal/merkle.py:verify_merkle_inclusion", "sigstore/_internal/rekor/checkpoint.py:verify_checkpoint", "sigstore/models.py:TransparencyLogEntry._verify"]}
{"id": "C05", "title": "A verified checkpoint was signed by a trusted log key and commits to the proof's root", "statement": "If the checkpoint check succeeds for an entry, then the third line of the note text that precedes the blank line decodes to the same bytes as the inclusion proof's root hash, and the exact note text carries a signature, present in the envelope under the first four bytes of the entry's log id, that a key of the supplied keyring accepts.", "quantifier": "all checkpoint envelopes (arbitrary unicode text), all keyrings, all entries", "why_tests_cant": "The envelope is attacker controlled free text going through regex, splitting and lenient base64.", "anchors": ["sigstore/_internal/rekor/checkpoint.py:verify_checkpoint", "sigstore/_internal/rekor/checkpoint.py:SignedNote.from_text", "sigstore/_internal/rekor/checkpoint.py:SignedNote.verify", "sigstore/_internal/rekor/checkpoint.py:LogCheckpoint.from_text"]}
{"id": "C06", "title": "A malformed checkpoint fails with VerificationError and nothing else", "statement": "For every checkpoint text, parsing and checking it either succeeds or raises VerificationError (the behaviour announced in the changelog for malformed checkpoints).", "quantifier": "all texts", "why_tests_cant": "The space of malformed texts is unbounded; the unit tests cover three malformed texts.", "anchors": ["sigstore/_internal/rekor/checkpoint.py:SignedNote.from_text", "sigstore/_internal/rekor/checkpoint.py:LogCheckpoint.from_text", "sigstore/_internal/rekor/checkpoint.py:verify_checkpoint"]}
{"id": "C07", "title": "Notes written by a log are read back unchanged", "statement": "For every origin, size, root hash, extra lines and non-empty list of signatures that a log can write in signed-note format, parsing the text yields the same note text, the same signatures in the same order, and a checkpoint with the same origin, size, root hash and extra lines.", "quantifier": "all origins/extra lines free of newlines, all sizes, all hashes, all signature lists", "why_tests_cant": "Round trip over unbounded texts.", "anchors": ["sigstore/_internal/rekor/checkpoint.py:SignedNote.from_text", "sigstore/_internal/rekor/checkpoint.py:LogCheckpoint.from_text"]}
{"id": "C08", "title": "A signed entry timestamp binds body, time, log id and index", "statement": "The byte string covered by a signed entry timestamp determines the entry's body, integrated time, log id and log index: two entries that differ in any of the four never share a signed payload.", "quantifier": "all pairs of entries", "why_tests_cant": "Injectivity over unbounded byte strings and integers.", "anchors": ["sigstore/models.py:TransparencyLogEntry._encode_canonical", "sigstore/models.py:TransparencyLogEntry._verify_set"]}
{"id": "C09", "title": "The log's integrated time is only trusted when its SET has been verified", "statement": "Whenever a successful verification used the log's integrated time as a time source, the entry is a dsse or hashedrekord entry of version 0.0.1, carries an inclusion promise, and the promise's signature over (body, time, log id, index) is accepted by a trusted Rekor key.", "quantifier": "all bundles, trusted roots, clocks", "why_tests_cant": "Two distant pieces of code must agree on the condition under which the field is used; needs reasoning over all combinations of absent/zero fields.", "anchors": ["sigstore/verify/verifier.py:Verifier._establish_time", "sigstore/models.py:TransparencyLogEntry._verify", "sigstore/models.py:TransparencyLogEntry._verify_set"]}
{"id": "C10", "title": "Keyring verification accepts exactly what a trusted key accepts", "statement": "Verification with a key id that is in the keyring succeeds iff that key accepts the signature; with an unknown key id it succeeds iff some key in the keyring accepts it; in every case success implies that some trusted key accepts, and failure is reported as the invalid-signature error.", "quantifier": "all key sets, key ids, signatures, data", "why_tests_cant": "All histories of key rotation and all key ids.", "anchors": ["sigstore/_internal/trust.py:Keyring.verify", "sigstore/_internal/trust.py:Keyring.__init__"]}
{"id": "C11", "title": "Trusted keys only load when their material matches their declared algorithm", "statement": "A key enters a keyring only if its algorithm identifier is one of the supported ones and the loaded public key has the declared key family (RSA, EC or Ed25519); a loaded key is always one that the verification routine can use, so the 'unsupported key' error cannot occur; keys that fail to load are skipped without affecting the others.", "quantifier": "all lists of trusted-root keys", "why_tests_cant": "All combinations of declared algorithm and key material, over arbitrary lists.", "anchors": ["sigstore/_internal/trust.py:Key.__init__", "sigstore/_internal/trust.py:Key.verify", "sigstore/_internal/trust.py:Keyring.__init__"]}
{"id": "C12", "title": "Key and CA validity windows", "statement": "A key or CA is usable iff the current time is not before its start and, unless expired material is explicitly allowed, not after its end (an absent end never expires, an absent period is always valid). Everything usable for signing is usable for verification; with expired material allowed usability is monotone in time.", "quantifier": "all periods and clock values", "why_tests_cant": "Quantifies over every clock value including boundaries.", "anchors": ["sigstore/_utils.py:is_timerange_valid", "sigstore/models.py:TrustedRoot._get_tlog_keys", "sigstore/models.py:TrustedRoot.rekor_keyring", "sigstore/models.py:TrustedRoot.ct_keyring", "sigstore/_internal/trust.py:CertificateAuthority.certificates"]}
{"id": "C13", "title": "verify_artifact succeeds exactly when every required check holds", "statement": "verify_artifact returns normally iff: there is at least one verified time, the certificate chains to the trusted Fulcio material at every verified time, its SCT verifies, it allows digital signatures and code signing, the policy accepts it, the log entry verifies, every verified time lies in the certificate's validity window, the bundle carries a message signature whose recorded digest (if any) is the input's SHA-256 digest, the signature over that digest verifies under the certificate's key, and the log entry is the hashedrekord entry of exactly this digest, signature and certificate.", "quantifier": "all inputs, bundles, policies, trusted roots, clocks", "why_tests_cant": "The claim is an equivalence over an unbounded product of conditions; tests drop one condition at a time on one bundle.", "anchors": ["sigstore/verify/verifier.py:Verifier.verify_artifact", "sigstore/verify/verifier.py:Verifier._verify_common_signing_cert"]}
{"id": "C14", "title": "verify_dsse returns exactly the payload that was signed and logged", "statement": "If verify_dsse returns (type, payload) then the bundle's envelope has that type and payload and exactly one non-empty signature, which verifies under the certificate's key over the pre-authentication encoding of exactly that type and payload; and the log entry commits to the payload (v0.0.1) or to the encoding (hashedrekord 0.0.2) with the same signature and certificate.", "quantifier": "all bundles, policies, trusted roots", "why_tests_cant": "Adversarial bundles are unbounded.", "anchors": ["sigstore/verify/verifier.py:Verifier.verify_dsse", "sigstore/dsse/__init__.py:_verify", "sigstore/dsse/__init__.py:_pae"]}
{"id": "C15", "title": "Accepted certificates were valid at every trusted time", "statement": "After a successful verification there is at least one verified time, every verified time t satisfies not_before <= t <= not_after of the leaf (both ends included), and the chain was validated at each of those times.", "quantifier": "all bundles, all multisets of time sources", "why_tests_cant": "Boundary instants and arbitrary numbers of time sources.", "anchors": ["sigstore/verify/verifier.py:Verifier._verify_common_signing_cert"]}
{"id": "C16", "title": "Only timestamps from a trusted authority inside its window count", "statement": "A timestamp counts as a verified time iff some timestamp authority of the trusted root, with at least a leaf and a root certificate, verifies it over the bundle's own signature and its generation time is at or after the authority's start and strictly before its end (if any). More than 32 timestamps, duplicate timestamps, or timestamps without any trusted authority make verification fail.", "quantifier": "all lists of timestamps and authorities", "why_tests_cant": "All windows, all list lengths (the boundary is at 32/33), all authority orders.", "anchors": ["sigstore/verify/verifier.py:Verifier._verify_signed_timestamp", "sigstore/verify/verifier.py:Verifier._verify_timestamp_authority", "sigstore/verify/verifier.py:Verifier._establish_time"]}
{"id": "C17", "title": "Untrusted extra timestamps cannot change the verified times", "statement": "Adding to a bundle timestamps that no trusted authority verifies, as long as the count stays within 32 and they are distinct, leaves the multiset of verified times unchanged; and the set of verified times does not depend on the order of the timestamps.", "quantifier": "all bundles and all added timestamps", "why_tests_cant": "Unbounded families of added data.", "anchors": ["sigstore/verify/verifier.py:Verifier._establish_time", "sigstore/verify/verifier.py:Verifier._verify_timestamp_authority"]}
{"id": "C18", "title": "No confusion between artifact and attestation bundles", "statement": "verify_artifact never accepts a bundle without a message signature nor one whose log entry is not of kind hashedrekord; verify_dsse never accepts a bundle without an envelope.", "quantifier": "all bundles", "why_tests_cant": "Universal negative.", "anchors": ["sigstore/verify/verifier.py:Verifier.verify_artifact", "sigstore/verify/verifier.py:Verifier.verify_dsse"]}
{"id": "C19", "title": "Verification failures surface as VerificationError", "statement": "For every well-formed bundle object and input, verify_artifact and verify_dsse either succeed or raise VerificationError (documented contract).", "quantifier": "all bundles, inputs, policies", "why_tests_cant": "Every failure path of every helper must be covered; tests check a handful.", "anchors": ["sigstore/verify/verifier.py:Verifier.verify_artifact", "sigstore/verify/verifier.py:Verifier.verify_dsse", "sigstore/verify/policy.py:Identity.verify", "sigstore/_internal/rekor/checkpoint.py:SignedNote.from_text"]}
{"id": "C20", "title": "One bundle vouches for one artifact", "statement": "If verify_artifact accepts the same bundle for two inputs then both inputs have the same SHA-256 digest.", "quantifier": "all bundles, all pairs of inputs", "why_tests_cant": "Relates two executions over all inputs.", "anchors": ["sigstore/verify/verifier.py:Verifier.verify_artifact", "sigstore/verify/verifier.py:_validate_hashedrekord_v001_entry_body", "sigstore/verify/verifier.py:_validate_hashedrekord_v002_entry_body", "sigstore/hashes.py:Hashed"]}
{"id": "C21", "title": "AllOf is conjunction, AnyOf is disjunction, empty combinators reject", "statement": "AllOf accepts iff it has at least one child and every child accepts. AnyOf, for certificates on which no child fails with anything but VerificationError, accepts iff at least one child accepts. Empty combinators always raise VerificationError.", "quantifier": "all policy trees of any depth, all certificates", "why_tests_cant": "Arbitrary nesting of combinators.", "anchors": ["sigstore/verify/policy.py:AnyOf.verify", "sigstore/verify/policy.py:AllOf.verify"]}
{"id": "C22", "title": "Identity policy checks the identity and the issuer", "statement": "Identity accepts iff the certificate's issuer extension equals the configured issuer whenever a non-empty issuer is configured (an empty issuer string means no issuer check), and the configured identity is literally one of the certificate's RFC 822, URI or Fulcio otherName SANs.", "quantifier": "all certificates, identities, issuers", "why_tests_cant": "All SAN lists, all strings including empty ones.", "anchors": ["sigstore/verify/policy.py:Identity.__init__", "sigstore/verify/policy.py:Identity.verify"]}
{"id": "C23", "title": "Each extension policy checks its own extension for exact equality", "statement": "A single-extension policy accepts iff the certificate carries the extension with that policy's OID and its (v1 raw UTF-8, v2 DER UTF8String) content equals the configured value; different policy classes read different OIDs.", "quantifier": "all certificates and values", "why_tests_cant": "All extension contents.", "anchors": ["sigstore/verify/policy.py:_SingleX509ExtPolicy.verify", "sigstore/verify/policy.py:_SingleX509ExtPolicyV2.verify"]}
{"id": "C24", "title": "AnyOf accepts whenever some child accepts", "statement": "AnyOf accepts a certificate if at least one of its children accepts it, whatever the other children do.", "quantifier": "all child lists and certificates", "why_tests_cant": "Depends on what every other child does, including raising unexpected exceptions.", "anchors": ["sigstore/verify/policy.py:AnyOf.verify", "sigstore/verify/policy.py:Identity.verify"]}
{"id": "C25", "title": "`verify github` always pins the GitHub issuer", "statement": "Whatever options are given, a certificate accepted by `sigstore verify github` was issued for the GitHub Actions issuer and matches the given SAN identity or the given repository, plus every other given option; if neither identity nor repository is given the command fails.", "quantifier": "all option combinations, all certificates", "why_tests_cant": "2^n option combinations times all certificates.", "anchors": ["sigstore/_cli.py:_verify_github"]}
{"id": "C26", "title": "The SCT signed payload is unambiguous and RFC 6962 shaped", "statement": "The bytes over which an SCT is checked determine the SCT version, timestamp, entry type, issuer key hash, (pre)certificate bytes and extensions, and for certificates below 2^24 bytes equal the RFC 6962 digitally-signed structure; larger certificates are rejected with VerificationError.", "quantifier": "all SCTs, certificates and issuer key hashes", "why_tests_cant": "Injectivity over unbounded byte strings.", "anchors": ["sigstore/_internal/sct.py:_pack_digitally_signed", "sigstore/_internal/sct.py:_pack_signed_entry"]}
{"id": "C27", "title": "verify_sct accepts only a single SCT signed by a trusted CT key", "statement": "verify_sct succeeds only if the certificate embeds exactly one SCT, made with SHA-256, whose signature over the RFC 6962 structure for that certificate (for precertificates bound to the issuing CA's public key hash) is accepted by the CT keyring under the SCT's log id.", "quantifier": "all certificates, chains, keyrings", "why_tests_cant": "All combinations of chain shapes and SCT lists.", "anchors": ["sigstore/_internal/sct.py:verify_sct", "sigstore/_internal/sct.py:_get_signed_certificate_timestamp", "sigstore/_internal/sct.py:_get_issuer_cert"]}
{"id": "C28", "title": "A precertificate SCT is only accepted if the issuer is a CA", "statement": "If verify_sct succeeds on a precertificate SCT then the selected issuer certificate is a CA according to cert_is_ca.", "quantifier": "all issuer certificates", "why_tests_cant": "All combinations of BasicConstraints/KeyUsage.", "anchors": ["sigstore/_internal/sct.py:_cert_is_ca", "sigstore/_internal/sct.py:verify_sct", "sigstore/_utils.py:cert_is_ca"]}
{"id": "C29", "title": "SCT timestamps keep their millisecond value", "statement": "The millisecond timestamp embedded in the SCT signed payload equals the SCT's timestamp exactly, although it passes through floating point seconds.", "quantifier": "all millisecond timestamps in the representable range", "why_tests_cant": "There are 10^12 timestamps and the rounding error depends on the binade.", "anchors": ["sigstore/_internal/sct.py:_pack_digitally_signed"]}
{"id": "C30", "title": "Certificate classification is consistent", "statement": "cert_is_ca, cert_is_root_ca and cert_is_leaf never classify one certificate both as CA and as leaf; root CAs are exactly the self-issued CAs; leaf means v3, not a CA, digital signature and code signing; a CA means BasicConstraints critical with ca=true and KeyUsage with keyCertSign; cert_is_ca raises VerificationError on every certificate that neither asserts nor denies being a CA.", "quantifier": "all certificates (any presence/criticality/value of the relevant extensions)", "why_tests_cant": "Cartesian product of extension states, including missing extensions.", "anchors": ["sigstore/_utils.py:cert_is_ca", "sigstore/_utils.py:cert_is_root_ca", "sigstore/_utils.py:cert_is_leaf"]}
{"id": "C31", "title": "Every Bundle object satisfies the bundle format's requirements", "statement": "Whenever a Bundle object exists, its media type is a known one, it has a leaf certificate and exactly one log entry of version 0.0.1 or 0.0.2 with an inclusion proof and a checkpoint, and it has an inclusion promise (mandatory for v0.1) or a signed timestamp.", "quantifier": "all inputs to Bundle construction", "why_tests_cant": "All combinations of optional fields and media types.", "anchors": ["sigstore/models.py:Bundle.__init__", "sigstore/models.py:Bundle._verify"]}
{"id": "C32", "title": "Re-assembling a bundle preserves its verification material", "statement": "Taking a bundle apart and re-assembling it (as fix-bundle --upgrade-version does) yields a v0.3 bundle with the same certificate, content, log entry and signed timestamps.", "quantifier": "all bundles", "why_tests_cant": "All combinations of optional fields.", "anchors": ["sigstore/models.py:Bundle._to_parts", "sigstore/models.py:Bundle._from_parts", "sigstore/_cli.py:_fix_bundle"]}
{"id": "C33", "title": "The DSSE pre-authentication encoding is injective", "statement": "Two (payload type, payload) pairs with the same pre-authentication encoding are equal, so a DSSE signature commits to both the type and the payload.", "quantifier": "all unicode payload types and all byte payloads", "why_tests_cant": "Injectivity over unbounded inputs.", "anchors": ["sigstore/dsse/__init__.py:_pae"]}
{"id": "C34", "title": "Signing then verifying an envelope succeeds and returns the statement", "statement": "For any statement and any correct signature scheme, the envelope produced by signing verifies under the matching key and yields the signed statement bytes; envelopes without exactly one non-empty signature are rejected when constructed.", "quantifier": "all statements, keys, envelopes", "why_tests_cant": "Round trip over unbounded inputs.", "anchors": ["sigstore/dsse/__init__.py:_sign", "sigstore/dsse/__init__.py:_verify", "sigstore/dsse/__init__.py:Envelope._verify"]}
{"id": "C35", "title": "A caching signer requests one key and one certificate and never signs after expiry", "statement": "Over any sequence of signing calls at any times with any responses, a caching Signer uses one private key, obtains at most one certificate, and no call returns a bundle with a certificate whose not_after was before the moment the certificate was checked; once the certificate has expired every call raises ExpiredCertificate.", "quantifier": "all call histories, clocks and server responses", "why_tests_cant": "Unbounded histories.", "anchors": ["sigstore/sign.py:Signer._signing_cert", "sigstore/sign.py:Signer._private_key", "sigstore/sign.py:Signer.__init__"]}
{"id": "C36", "title": "A returned bundle's signature matches its certificate", "statement": "Every bundle returned by a Signer carries a signature made with the private key whose public key was put in the certificate request for the bundle's certificate.", "quantifier": "both cache modes, all call histories", "why_tests_cant": "Requires tracking key identities through arbitrary histories; the live tests only use the default mode.", "anchors": ["sigstore/sign.py:Signer._private_key", "sigstore/sign.py:Signer._build_csr", "sigstore/sign.py:Signer.sign_artifact", "sigstore/sign.py:Signer.sign_dsse"]}
{"id": "C37", "title": "Timestamp authority failures never produce a bundle without a time source", "statement": "Whatever subset of timestamp authorities fails, signing either returns a bundle with an inclusion promise or at least one timestamp, containing exactly the timestamps of the authorities that answered, in order; or raises.", "quantifier": "all lists of authorities and failure patterns", "why_tests_cant": "2^n failure patterns.", "anchors": ["sigstore/sign.py:Signer._finalize_sign", "sigstore/models.py:Bundle._from_parts", "sigstore/_internal/timestamp.py:TimestampAuthorityClient.request_timestamp"]}
{"id": "C38", "title": "Bundles produced by signing against honest services verify", "statement": "Given correct signature schemes and honest Fulcio, CT, Rekor and TSA services, the bundle returned by sign_artifact is accepted by verify_artifact for the same input, and the bundle returned by sign_dsse is accepted by verify_dsse, returning the statement.", "quantifier": "all inputs, keys, log contents, log sizes and times", "why_tests_cant": "End-to-end composition over unbounded log contents.", "anchors": ["sigstore/sign.py:Signer.sign_artifact", "sigstore/verify/verifier.py:Verifier.verify_artifact", "sigstore/sign.py:Signer.sign_dsse", "sigstore/verify/verifier.py:Verifier.verify_dsse"]}
{"id": "C39", "title": "Service selection from a signing config", "statement": "The services selected are currently valid, of a supported API version, at most one per operator, each the highest supported version its operator currently offers, in the order operators first appear; ALL returns one for every operator, EXACT returns exactly the requested count or fails, ANY returns at most one.", "quantifier": "all service lists, versions, clocks and selectors", "why_tests_cant": "Arbitrary lists with ties, duplicates, and interleaved operators.", "anchors": ["sigstore/models.py:SigningConfig._get_valid_services", "sigstore/models.py:SigningConfig.__init__"]}
{"id": "C40", "title": "A constructed identity token is inside its validity window and has an identity", "statement": "Whenever IdentityToken construction succeeds at time now, then nbf <= now < exp (nbf if present), the audience is sigstore, and the identity is the issuer's identity claim (email/sub for known issuers, sub otherwise); in_validity_period at a later time holds iff nbf <= t < exp.", "quantifier": "all claim sets and clocks", "why_tests_cant": "All claim combinations including absent and boundary values.", "anchors": ["sigstore/oidc.py:IdentityToken.__init__", "sigstore/oidc.py:IdentityToken.in_validity_period"]}
{"id": "C41", "title": "The OAuth redirect flow accepts one matching response", "statement": "Over any sequence of requests to the local redirect server, the authorization URL is handed out at most once, the first callback fixes the response, later callbacks never change it, and an authorization code is exchanged only if that response carried the session's state; the redirect URI sent in the token request equals the one in the authorization request.", "quantifier": "all request histories", "why_tests_cant": "Unbounded request sequences.", "anchors": ["sigstore/_internal/oidc/oauth.py:_OAuthRedirectHandler.do_GET", "sigstore/_internal/oidc/oauth.py:_OAuthSession.auth_endpoint", "sigstore/oidc.py:Issuer.identity_token"]}
{"id": "C42", "title": "`sign` does not overwrite existing files unless asked", "statement": "Without --overwrite, if the sign command proceeds then every output path it will write is absent from the file system; with conflicting output options or an invalid output directory it fails before signing anything.", "quantifier": "all file lists, option combinations and file system states", "why_tests_cant": "Unbounded file lists and file system states.", "anchors": ["sigstore/_cli.py:_sign", "sigstore/_cli.py:_sign_common", "sigstore/_cli.py:_attest"]}
{"id": "C43", "title": "Concurrent signing gives each input its own bundle, for every schedule", "statement": "For any schedule of the signing threads, after a successful multi-file sign every output file contains the bundle of its own input.", "quantifier": "all interleavings, all file lists with pairwise different output paths", "why_tests_cant": "All thread schedules.", "anchors": ["sigstore/_cli.py:_sign_file_threaded", "sigstore/_cli.py:_sign_common"]}
{"id": "C44", "title": "`verify` exits successfully only if every input was verified", "statement": "If `sigstore verify ...` exits with status 0, then every file or digest on the command line was verified against its own bundle; missing inputs or materials, conflicting options, or any failed verification give a non-zero exit.", "quantifier": "all argument lists, option combinations, file system states, verification outcomes", "why_tests_cant": "Unbounded argument lists.", "anchors": ["sigstore/_cli.py:_collect_verification_state", "sigstore/_cli.py:_verify_identity", "sigstore/_cli.py:_verify_common"]}
{"id": "C45", "title": "`sha256:` arguments denote exactly the given digest", "statement": "An argument that names no existing file is accepted iff it is `sha256:` followed by 64 hex digits, and the digest verified is exactly those 32 bytes; an existing file always takes precedence.", "quantifier": "all argument strings", "why_tests_cant": "All strings.", "anchors": ["sigstore/_cli.py:_add_shared_verify_input_options.file_or_digest"]}
{"id": "C46", "title": "`attest` with several inputs does not lose bundles", "statement": "If `attest` succeeds then for every input there is an output file that holds the bundle for that input.", "quantifier": "all file lists and option combinations", "why_tests_cant": "All option combinations and list lengths.", "anchors": ["sigstore/_cli.py:_attest", "sigstore/_cli.py:_sign_common"]}
{"id": "C47", "title": "Different TUF repositories never share local state", "statement": "Two repository URLs that differ after removing trailing slashes are mapped to different metadata and cache directories, and the directory name is a single path component.", "quantifier": "all pairs of URL strings", "why_tests_cant": "Injectivity over all strings.", "anchors": ["sigstore/_internal/tuf.py:_get_dirs", "sigstore/_internal/tuf.py:TrustUpdater.__init__"]}
{"id": "C48", "title": "TUF: online uses only verified targets, offline never touches the network", "statement": "In online mode a returned path is one produced by the TUF client for the metadata-listed target after a successful refresh (and any failure raises TUFError); in offline mode the client is never contacted and only cached/embedded files are returned; existing cached files are never replaced by embedded ones.", "quantifier": "all repository states, failures and cache states", "why_tests_cant": "All failure points.", "anchors": ["sigstore/_internal/tuf.py:TrustUpdater.__init__", "sigstore/_internal/tuf.py:TrustUpdater.get_trusted_root_path", "sigstore/_internal/tuf.py:TrustUpdater.get_signing_config_path"]}
{"id": "C49", "title": "Searching Rekor returns the oldest entry, or None if there is none", "statement": "Retrieving an entry returns one with the smallest integrated time among those the log returned, the first such; when the log has no matching entry (HTTP 404) the result is None.", "quantifier": "all server responses", "why_tests_cant": "All response lists, all statuses.", "anchors": ["sigstore/_internal/rekor/client.py:RekorEntriesRetrieve.post"]}
{"id": "C50", "title": "Fetching a log entry takes exactly one of uuid or index", "statement": "RekorEntries.get performs the request for the given uuid if only a uuid is given, for the given index if only an index is given (any index >= 0), and raises ValueError if both or neither are given.", "quantifier": "all optional uuids and indices", "why_tests_cant": "Python truthiness of 0 and '' makes the boundary values special.", "anchors": ["sigstore/_internal/rekor/client.py:RekorEntries.get"]}
{"id": "C51", "title": "Streaming digests equal whole-content digests", "statement": "The digest computed from a stream equals the SHA-256 of the stream's content whatever the chunk sizes returned by reads; a pre-computed Hashed is used unchanged.", "quantifier": "all contents and all read schedules", "why_tests_cant": "All chunkings.", "anchors": ["sigstore/_utils.py:sha256_digest", "sigstore/_utils.py:_sha256_streaming"]}
{"id": "C52", "title": "Key algorithm selection is total on supported keys and consistent", "statement": "For every supported public key the selected algorithm identifier is in the registry, has the key's type and curve/size, and the prehash for Rekor v2 uses that algorithm's hash; unsupported keys raise ValueError.", "quantifier": "all public keys", "why_tests_cant": "All sizes/curves.", "anchors": ["sigstore/_internal/key_details.py:_get_key_details", "sigstore/_internal/key_details.py:_get_prehash", "sigstore/_internal/key_details.py:_get_algorithm_details"]}
{"id": "C53", "title": "An attestation matches an artifact only through an exact subject digest", "statement": "The CLI accepts an attestation for an artifact only if the verified payload has the in-toto type, parses as a statement and has a subject whose sha256 is the lower-case hex of the artifact's digest.", "quantifier": "all statements and artifacts", "why_tests_cant": "All statements.", "anchors": ["sigstore/dsse/__init__.py:Statement._matches_digest", "sigstore/_cli.py:_verify_common"]}
{"id": "C54", "title": "Hash and byte encodings used for identifiers are lossless", "statement": "base64 and hex encodings used in bundles, SETs and checkpoints decode to the original bytes for every byte string, and encode different strings differently.", "quantifier": "all byte strings", "why_tests_cant": "Unbounded.", "anchors": ["sigstore/models.py:TransparencyLogEntry._encode_canonical", "sigstore/_internal/rekor/checkpoint.py:LogCheckpoint.from_text", "sigstore/_utils.py:base64_encode_pem_cert"]}
{"id": "C55", "title": "What signing submits to Rekor is what verification expects", "statement": "For both Rekor API versions, the entry body an honest log derives from the signer's request is exactly the body verification reconstructs from the bundle.", "quantifier": "all inputs, signatures, certificates", "why_tests_cant": "All inputs; v1 and v2, artifacts and attestations.", "anchors": ["sigstore/_internal/rekor/client.py:RekorClient._build_hashed_rekord_request", "sigstore/_internal/rekor/client_v2.py:RekorV2Client._build_hashed_rekord_request", "sigstore/verify/verifier.py:_validate_hashedrekord_v001_entry_body", "sigstore/verify/verifier.py:_validate_hashedrekord_v002_entry_body", "sigstore/verify/verifier.py:_validate_hashedrekord_v002_dsse_entry_body", "sigstore/verify/verifier.py:_validate_dsse_v001_entry_body"]}
{"id": "C56", "title": "HTTP sessions are never shared between threads", "statement": "For every schedule of threads using one Rekor or TSA client, a session object is only ever used by the thread it was created for and each thread reuses one session.", "quantifier": "all schedules", "why_tests_cant": "All interleavings.", "anchors": ["sigstore/_internal/rekor/client.py:RekorClient._session", "sigstore/_internal/timestamp.py:TimestampAuthorityClient._session"]}
{"id": "C57", "title": "A log entry verifies iff inclusion, checkpoint and (if usable) SET all verify", "statement": "Entry verification succeeds iff the Merkle proof recomputes the root hash, the checkpoint check passes, and, when both promise and a non-zero integrated time are present, the SET verifies; a missing proof is an error.", "quantifier": "all entries and keyrings", "why_tests_cant": "All combinations of optional fields.", "anchors": ["sigstore/models.py:TransparencyLogEntry._verify"]}
{"id": "C58", "title": "Trust configuration chosen by the CLI", "statement": "Exactly one of explicit trust config, custom instance, staging or production is used, in that order of precedence, and an explicit Rekor version is applied to whichever is chosen.", "quantifier": "all option combinations", "why_tests_cant": "All option combinations.", "anchors": ["sigstore/_cli.py:_get_trust_config"]}
{"id": "C59", "title": "A trusted EC key only loads if its curve matches its declared algorithm", "statement": "If a trusted-root key whose algorithm identifier names a NIST curve enters a keyring, then the loaded public key is on that curve.", "quantifier": "all trusted-root key messages and all public keys their bytes may decode to", "why_tests_cant": "tests exercise a few key files; the claim is about every combination of declared algorithm and key material", "anchors": ["sigstore/_internal/trust.py: Key.__init__"]}
{"id": "C60", "title": "A leaf certificate never asserts keyCertSign", "statement": "If cert_is_leaf accepts a certificate then its KeyUsage does not assert keyCertSign (an inconsistent combination of CA states is never considered a valid leaf).", "quantifier": "all certificates", "why_tests_cant": "Cartesian product of extension states, including missing extensions.", "anchors": ["sigstore/_utils.py:cert_is_ca", "sigstore/_utils.py:cert_is_leaf"]}
{"id": "C61", "title": "The DSSE pre-authentication encoding follows the DSSE specification", "statement": "For every payload type and payload, the encoding is the one of the DSSE v1 specification (lengths are byte lengths).", "quantifier": "all unicode payload types and all byte payloads", "why_tests_cant": "Depends on every payload type, including non-ASCII ones.", "anchors": ["sigstore/dsse/__init__.py:_pae"]}
{"id": "C62", "title": "Bundle construction failures surface as InvalidBundle", "statement": "Constructing a Bundle from any decoded bundle message either succeeds or raises InvalidBundle.", "quantifier": "all decoded bundle messages", "why_tests_cant": "Every combination of optional fields and malformed embedded certificates or timestamps has to be covered.", "anchors": ["sigstore/models.py:Bundle.__init__", "sigstore/models.py:Bundle._verify"]}
{"id": "C63", "title": "fix-bundle changes nothing but a log entry that lacked its checkpoint", "statement": "fix-bundle without --upgrade-version outputs a bundle equal to its input, except that a log entry whose inclusion proof lacks a checkpoint is replaced by the entry of the same index fetched from the log; it never rewrites an entry that has its checkpoint.", "quantifier": "all bundle messages, all log answers", "why_tests_cant": "Quantifies over all bundles and all answers of the remote log.", "anchors": ["sigstore/_cli.py:_fix_bundle"]}
{"id": "C64", "title": "The Fulcio client returns the leaf and a non-empty chain, or raises", "statement": "For every response of Fulcio, the client returns the first certificate and the remaining, at least one, in order, or raises FulcioClientError (error status, no chain, fewer than two certificates) or ValueError (a certificate that does not load).", "quantifier": "all responses", "why_tests_cant": "All lengths of certificate lists and all positions of the malformed one.", "anchors": ["sigstore/_internal/fulcio/client.py:93-134"]}
{"id": "C65", "title": "A signing context uses the selected services", "statement": "A signing config is accepted iff its media type is known, both selections succeed and a usable Fulcio service and log exist; a context then uses the first selected certificate authority, the first selected log with a client of that log's API version, and every selected timestamp authority; otherwise creation fails with Error (ValueError if an EXACT count cannot be met, AssertionError only for a forced Rekor version other than 1 and 2).", "quantifier": "all signing configs, clocks and forced versions", "why_tests_cant": "All service lists and all combinations of versions and validity periods.", "anchors": ["sigstore/models.py:SigningConfig", "sigstore/sign.py:SigningContext.from_trust_config"]}
{"id": "C66", "title": "Constructing an identity token fails only with IdentityError", "statement": "For every token text, constructing IdentityToken succeeds or raises IdentityError.", "quantifier": "all token texts, claim sets and clocks", "why_tests_cant": "Claims may have any JSON type.", "anchors": ["sigstore/oidc.py:IdentityToken.__init__"]}
{"id": "C67", "title": "A bad OAuth redirect fails with IdentityError", "statement": "Whatever query the redirect carries, Issuer.identity_token returns a token or raises IdentityError.", "quantifier": "all redirect queries", "why_tests_cant": "All combinations of present, absent and repeated parameters.", "anchors": ["sigstore/oidc.py:Issuer.identity_token"]}
{"id": "C68", "title": "Reading an entry from a Rekor v1 response is faithful", "statement": "Decoding the response in which a log renders an entry gives that entry; every accepted response has exactly one entry, with promise, integrated time, inclusion proof and checkpoint, and each field of the result is the decoding of the corresponding field.", "quantifier": "all responses and entries", "why_tests_cant": "All byte strings and list lengths.", "anchors": ["sigstore/models.py:TransparencyLogEntry._from_v1_response"]}
{"id": "C69", "title": "`verify --offline` stays offline", "statement": "With --offline, `sigstore verify` never asks the TUF client library for anything and never queries Rekor, whatever the other arguments and the outcome.", "quantifier": "all argument lists, option combinations, files and library behaviours", "why_tests_cant": "All combinations and all failure paths.", "anchors": ["sigstore/_cli.py:_collect_verification_state", "sigstore/_internal/tuf.py:TrustUpdater.__init__"]}
{"id": "C70", "title": "Trust material of an unknown format is rejected", "statement": "A trust configuration is used for verification only if its media type and that of its trusted root are known.", "quantifier": "all configurations and media types", "why_tests_cant": "All texts.", "anchors": ["sigstore/models.py:ClientTrustConfig", "sigstore/models.py:TrustedRoot.__init__"]}
{"id": "C71", "title": "A successful multi-file `sign` leaves a bundle for each input", "statement": "If `sigstore sign` returns normally, then for every input file the bundle path chosen for it holds the bundle made for that input; with default naming two different inputs never share an output path.", "quantifier": "all argument lists, disks, service answers and thread interleavings", "why_tests_cant": "All argument lists and all schedules of the worker threads.", "anchors": ["sigstore/_cli.py:_sign", "sigstore/_cli.py:_sign_common"]}
{"id": "C72", "title": "Identity precedence without silent fallback", "statement": "Signing uses the explicit identity token if one is given, else the ambient credential if the environment has one, else the interactive flow of the selected issuer; a token that is present but invalid makes the command fail instead of falling back to another identity.", "quantifier": "all option combinations, environments, tokens and flow outcomes", "why_tests_cant": "All tokens and all combinations of failing sources.", "anchors": ["sigstore/_cli.py:_sign_common", "sigstore/_cli.py:_get_identity", "sigstore/oidc.py:detect_credential"]}
{"id": "C73", "title": "Accepted attestations are authentic", "statement": "In a world where the certificate authority, the logs and the timestamp authorities only sign what they should and signatures cannot be forged: if verify_dsse returns a payload under an Identity policy, then somebody with the certificate's private key logged in as that identity at that issuer when the certificate's validity began, and somebody with that key signed exactly the returned payload type and payload before the validity ended.", "quantifier": "all bundles, policies, trust roots and histories of the services", "why_tests_cant": "Relates the verifier's answer to events in the past of the outside world.", "anchors": ["sigstore/verify/verifier.py:verify_dsse", "sigstore/verify/verifier.py:_verify_common_signing_cert", "sigstore/verify/policy.py:Identity"]}
{"id": "C74", "title": "Accepted artifact signatures are authentic", "statement": "In the same world: if verify_artifact accepts a bundle for an artifact under an Identity policy, somebody with the certificate's private key logged in as that identity, and somebody with that key signed the digest of this artifact before the certificate's validity ended.", "quantifier": "all inputs, bundles, policies, trust roots and histories of the services", "why_tests_cant": "Relates the verifier's answer to events in the past; fails only for bundles no honest client makes.", "anchors": ["sigstore/verify/verifier.py:verify_artifact", "sigstore/verify/verifier.py:_establish_time", "sigstore/models.py:Bundle.signature"]}
{"id": "C75", "title": "Promises of a log cannot be reused for something else", "statement": "What a log signs to promise inclusion is never read as a checkpoint and never as an SCT, so the signature of a promise is never accepted as that of a checkpoint or an SCT.", "quantifier": "all signed notes, log entries, SCTs and certificates", "why_tests_cant": "A statement about all pairs of texts.", "anchors": ["sigstore/models.py:TransparencyLogEntry._encode_canonical", "sigstore/_internal/rekor/checkpoint.py:SignedNote.from_text", "sigstore/_internal/sct.py:_pack_digitally_signed"]}
{"id": "C76", "title": "Accepted bundles are public", "statement": "If the trusted logs only sign heads of their trees and the hash has no collisions among the strings hashed, the log entry of every accepted bundle is among the entries of a trusted log, and it records the certificate, the digest and the signature that were verified; so whoever watches the logs sees every signature that verifies.", "quantifier": "all bundles, inputs, trust roots and logs", "why_tests_cant": "All logs of all sizes and all proofs, including made-up ones.", "anchors": ["sigstore/_internal/merkle.py:verify_merkle_inclusion", "sigstore/_internal/rekor/checkpoint.py:verify_checkpoint", "sigstore/verify/verifier.py:verify_artifact"]}
{"id": "C77", "title": "Accepted certificates are public", "statement": "If the trusted CT logs only sign certificates they take responsibility for, then such a log took responsibility for the certificate of every accepted bundle: for the certificate itself, or for its precertificate under the key of its issuer in the verified chain.", "quantifier": "all bundles, certificates, chains and trust roots", "why_tests_cant": "All certificates and SCTs, including made-up ones.", "anchors": ["sigstore/_internal/sct.py:verify_sct", "sigstore/verify/verifier.py:_verify_common_signing_cert"]}
{"id": "C78", "title": "Accepted once, accepted later", "statement": "A bundle that verified at some time with some trusted root verifies at every later time with the same trusted root.", "quantifier": "all bundles, trust roots and pairs of times", "why_tests_cant": "All pairs of times; and every part of the trust root has its own validity period.", "anchors": ["sigstore/verify/verifier.py:_verify_common_signing_cert", "sigstore/verify/verifier.py:_establish_time", "sigstore/_internal/trust.py:KeyringPurpose", "sigstore/models.py:TrustedRoot.rekor_keyring", "sigstore/models.py:TrustedRoot.get_fulcio_certs"]}
{"id": "C79", "title": "Adding trust keeps old bundles verifiable", "statement": "A bundle that verifies with a trusted root verifies with every trusted root that has the same and further logs, CT logs, timestamp authorities and certificate authorities.", "quantifier": "all bundles and pairs of trust roots, one part of the other", "why_tests_cant": "All pairs of trust roots: key rotations add to the root, and no test has the roots of the future.", "anchors": ["sigstore/verify/verifier.py:_establish_time", "sigstore/_internal/trust.py:Keyring.verify", "sigstore/models.py:TrustedRoot.get_timestamp_authorities"]}
{"id": "C80", "title": "An HTTP error status never yields data", "statement": "Every entry, log description, certificate and timestamp that a client of a service returns is what the service's response describes, and that response did not have an error status (4xx or 5xx); so the entry and the timestamps in a signed bundle come from successful responses.", "quantifier": "all responses (status, body, any JSON document), all clients", "why_tests_cant": "Response bodies are arbitrary JSON, and `requests` treats error statuses in two different ways (`raise_for_status`, falsy responses); tests use a few recorded responses.", "anchors": ["sigstore/_internal/rekor/client.py:RekorLog.get", "sigstore/_internal/rekor/client.py:RekorEntries.post", "sigstore/_internal/rekor/client_v2.py:RekorV2Client.create_entry", "sigstore/models.py:TransparencyLogEntry._from_v1_response", "sigstore/sign.py:Signer._finalize_sign"]}
{"id": "C81", "title": "Fulcio failures surface as FulcioClientError with the server's message", "statement": "Whenever Fulcio does not hand out a certificate chain, the client raises FulcioClientError (documented as raised on any error in the Fulcio client), and for an HTTP error the server's message is in it.", "quantifier": "all outcomes of the HTTP request, all JSON documents", "why_tests_cant": "The set of malformed responses is infinite; tests have one or two.", "anchors": ["sigstore/_internal/fulcio/client.py:FulcioSigningCert.post", "sigstore/_internal/fulcio/client.py:FulcioClientError"]}
{"id": "C82", "title": "Timestamp requests fail only with TimestampError", "statement": "A request to a timestamp authority gives a timestamp exactly if the request could be built and sent, the status is no error and the content decodes; in every other case it raises TimestampError, so signing can go on with the other authorities.", "quantifier": "all responses and libraries' outcomes", "why_tests_cant": "All ways in which building, sending and decoding can fail.", "anchors": ["sigstore/_internal/timestamp.py:TimestampAuthorityClient.request_timestamp"]}
{"id": "C83", "title": "Issuer failures surface as IssuerError", "statement": "Creating an Issuer gives the endpoints that its configuration document names, or raises IssuerError or NetworkError.", "quantifier": "all outcomes of the HTTP request, all JSON documents", "why_tests_cant": "Infinite set of malformed documents and `requests` exceptions.", "anchors": ["sigstore/oidc.py:Issuer.__init__", "sigstore/oidc.py:_OpenIDConfiguration"]}
{"id": "C84", "title": "An identity token comes only from a matching redirect and a granted token response", "statement": "The interactive flow returns an identity token only if the redirect carried the session's state and no error, and the token endpoint answered the exchange of its code with a successful response that grants an access token which passes the checks on identity tokens.", "quantifier": "all redirects, responses and JSON documents", "why_tests_cant": "Any redirect and any token response.", "anchors": ["sigstore/oidc.py:Issuer.identity_token"]}
{"id": "C85", "title": "Token exchange failures are IdentityError or NetworkError", "statement": "If exchanging the code for a token fails, IdentityError or NetworkError is raised.", "quantifier": "all outcomes of the HTTP request, all JSON documents", "why_tests_cant": "Infinite set of malformed documents.", "anchors": ["sigstore/oidc.py:Issuer.identity_token"]}
{"id": "C86", "title": "Accepted payloads are in-toto v1 statements", "statement": "A payload is accepted as a statement if and only if it is JSON of an in-toto v1 statement, and the subjects, predicate type and predicate the code reads are those that the document has.", "quantifier": "all JSON documents, all statements", "why_tests_cant": "Infinite set of documents; relation between a schema library's aliases and an external specification.", "anchors": ["sigstore/dsse/__init__.py:_Statement", "sigstore/dsse/__init__.py:Subject", "sigstore/dsse/__init__.py:Statement.__init__"]}
{"id": "C87", "title": "What attest signs", "statement": "If attest succeeds with outputs at different places, the output of each input holds a signed in-toto v1 statement with one subject, which has the name and SHA-256 digest of that input, with the declared predicate type and exactly the document in the predicate file, which is provenance of that type; the statement matches the digest of that input and no other. If the predicate file holds anything else, nothing is signed, requested or written.", "quantifier": "all inputs, predicate files, options, schedules of the worker threads, answers of the services, JSON libraries", "why_tests_cant": "Composition of file reading, schema validation, concurrent signing and serialisation over all documents and schedules.", "anchors": ["sigstore/_cli.py:_attest", "sigstore/_cli.py:_sign_file_threaded", "sigstore/dsse/__init__.py:StatementBuilder.build", "sigstore/dsse/_predicate.py"]}
{"id": "C88", "title": "The predicates attest accepts are SLSA provenance", "statement": "A predicate is accepted as SLSA provenance v0.2 or v1 if and only if it is a document of that kind.", "quantifier": "all JSON documents", "why_tests_cant": "Infinite set of nested documents; relation of class declarations to an external specification.", "anchors": ["sigstore/dsse/_predicate.py:SLSAPredicateV0_2", "sigstore/dsse/_predicate.py:SLSAPredicateV1_0", "sigstore/dsse/_predicate.py:ResourceDescriptor"]}
{"id": "C89", "title": "Command lines and environments mean what the documentation says", "statement": "A command line is accepted if and only if every option in it is documented for its command (with a value exactly if it takes one), the required ones are given, at most one instance is chosen, and the positional arguments are as documented. Each command then runs with, for every option, the value given last on the line, else that of its environment variable, else the default; a flag is set if it is given or its variable is a word for yes.", "quantifier": "all command lines, environments, commands, libraries and states", "why_tests_cant": "Infinite set of command lines and environments; three nested argparse parsers share one namespace, with defaults that overwrite each other.", "anchors": ["sigstore/_cli.py:_parser", "sigstore/_cli.py:main", "sigstore/_cli.py:_boolify_env", "sigstore/_cli.py:_add_shared_verify_input_options", "sigstore/_cli.py:_add_shared_oidc_options"]}
{"id": "C90", "title": "Environment variables and -v have the documented effect", "statement": "The variables SIGSTORE_CERT_IDENTITY and SIGSTORE_CERT_OIDC_ISSUER replace the options they are the defaults of, -v raises the verbosity wherever it is accepted, and a malformed switch in the environment affects only commands with that switch and is reported as a usage error.", "quantifier": "all command lines and environments", "why_tests_cant": "Quantifies over all placements of options and all environments; the tests run with an empty environment.", "anchors": ["sigstore/_cli.py:_parser", "sigstore/_cli.py:_boolify_env", "sigstore/_cli.py:main"]}
{"id": "C91", "title": "Exit status 0 of the whole program `sigstore verify`", "statement": "If `sigstore verify identity` or `verify github` exits with status 0 then either help was asked for or there is at least one input and every input was verified, under the trust configuration selected on the line, with a certificate that was issued to exactly the identity and by exactly the issuer given on the line (for GitHub: that has every claim given on the line or else in the environment), whatever else is in the environment.", "quantifier": "all command lines, environments, files, trust configurations, libraries that do not exit", "why_tests_cant": "End-to-end statement about all command lines, environments and inputs; a single unchecked path is a security hole.", "anchors": ["sigstore/_cli.py:main", "sigstore/_cli.py:_verify_identity", "sigstore/_cli.py:_verify_github", "sigstore/_cli.py:_get_trust_config"]}
{"id": "C92", "title": "Verbosity does not change outcomes, and sigstore's errors never escape", "statement": "Without -v after the command, no command ends with an uncaught error of sigstore (it is reported and the process exits with status 1); and -v or --verbose anywhere changes neither the exit status nor the effects of a command.", "quantifier": "all commands, command lines, environments, libraries, states", "why_tests_cant": "Relates pairs of runs (noninterference) over all commands and failures.", "anchors": ["sigstore/_cli.py:main", "sigstore/errors.py:Error.log_and_exit", "sigstore/_cli.py:_verify_identity"]}
{"id": "C93", "title": "fix-bundle never loses a bundle", "statement": "Without --in-place fix-bundle prints the fixed bundle exactly if the bundle can be fixed, and changes no file. With --in-place it replaces the file by the text of the fixed bundle, or fails and leaves it as it was; no other file changes; fixing twice is fixing once; the entry is fetched from the log of the chosen instance.", "quantifier": "all bundles, files, locales, responses of the log", "why_tests_cant": "Quantifies over all failures between truncating and writing, all encodings and all bundles.", "anchors": ["sigstore/_cli.py:_fix_bundle"]}
{"id": "C94", "title": "Exit status 0 means that the command completed", "statement": "If a process did not ask for help, it ends with status 0 exactly if the command returned normally, whatever failed and whatever the verbosity. In particular, if `sigstore sign` or `sigstore attest` exits with status 0, its outputs are at different places and --overwrite is off, then every file named on the command line has its outputs: a bundle (attestation) for its own content, signed with the key of one certificate.", "quantifier": "all commands, command lines, environments, file systems, thread schedules, answers of services, failures", "why_tests_cant": "Quantifies over every failing step of every command, every interleaving of the signing threads, and all command lines.", "anchors": ["sigstore/_cli.py:main", "sigstore/_cli.py:_sign_common", "sigstore/_cli.py:_sign_file_threaded", "sigstore/_cli.py:_attest"]}
{"id": "C95", "title": "The content of an input does not leave the machine", "statement": "What `sign`, `attest` and `verify` send to Fulcio, Rekor, timestamp authorities and TUF, what they write and how they end depends on the content of their inputs through its SHA-256 digest only: two runs whose inputs have other contents with the same digests cannot be told apart, whatever the services answer.", "quantifier": "all pairs of file systems, inputs, options, schedules, services", "why_tests_cant": "A relational property of pairs of runs (noninterference) over all interleavings and all behaviours of the services.", "anchors": ["sigstore/_cli.py:_sign_file_threaded", "sigstore/_cli.py:_sign_common", "sigstore/_cli.py:_collect_verification_state", "sigstore/sign.py:Signer.sign_artifact"]}
{"id": "C96", "title": "The identity token is sent to Fulcio only", "statement": "Whatever the services answer, the OIDC token of a signing session occurs in the Authorization header of certificate requests to the configured Fulcio origin and nowhere else: two sessions with different tokens send the same requests to every other host, and return the same bundles if Fulcio's answers are the same.", "quantifier": "all tokens, contexts, sequences of calls, adversarial services whose answers depend on all earlier requests", "why_tests_cant": "Noninterference between pairs of runs for all behaviours of the services.", "anchors": ["sigstore/_internal/fulcio/client.py:FulcioSigningCert.post", "sigstore/sign.py:Signer._signing_cert", "sigstore/_internal/timestamp.py:TimestampAuthorityClient.request_timestamp", "sigstore/_internal/rekor/client.py:RekorEntries.post"]}
{"id": "C97", "title": "Nothing is published before the certificate is checked", "statement": "A signing call sends at most one certificate request (none with a cached certificate), then one query to each configured timestamp authority in order, then at most one entry to the configured log, and nothing else. Queries and entries are sent only if the certificate in them is an unexpired cached one or was issued for a valid token and its SCT verified with the CT keys that are valid now. A call returns a bundle only after publishing exactly one entry. A caching session sends at most one certificate request.", "quantifier": "all contexts, calls, sessions, adversarial services", "why_tests_cant": "Quantifies over all service behaviours and all sequences of calls; tests see a few recorded exchanges.", "anchors": ["sigstore/sign.py:Signer._signing_cert", "sigstore/sign.py:Signer._finalize_sign", "sigstore/sign.py:Signer.sign_artifact", "sigstore/sign.py:Signer.sign_dsse"]}
{"id": "C98", "title": "The authorization request is well-formed and its answer is authenticated", "statement": "The URL opened in the browser carries exactly the fields of an OAuth 2.0 authorization request with the given values, whatever characters they contain, with the S256 challenge (RFC 7636) of a fresh code verifier; and the redirect's form is decoded so that a code is exchanged exactly if the form has no error and has the session's state.", "quantifier": "all endpoints, client ids, secrets, states, random bytes, redirect forms", "why_tests_cant": "Percent-encoding and form decoding over arbitrary Unicode texts; uniqueness of decoding.", "anchors": ["sigstore/_internal/oidc/oauth.py:_OAuthSession.auth_endpoint", "sigstore/_internal/oidc/oauth.py:_OAuthRedirectHandler.do_GET", "sigstore/oidc.py:Issuer.identity_token"]}
{"id": "C99", "title": "Endpoints are below the configured URLs", "statement": "Every endpoint of a service is the configured URL of the service, without trailing slashes, followed by the endpoint's path.", "quantifier": "all configured URLs: every scheme, authority, path and number of trailing slashes", "why_tests_cant": "Depends on urljoin's resolution of references for arbitrary base URLs.", "anchors": ["sigstore/_internal/fulcio/client.py:FulcioClient.signing_cert", "sigstore/oidc.py:Issuer.__init__", "sigstore/_internal/rekor/client.py:RekorClient.__init__", "sigstore/_internal/rekor/client_v2.py:RekorV2Client.__init__", "sigstore/_internal/tuf.py:TrustUpdater.__init__"]}
{"id": "C100", "title": "Unusable arguments are refused with exit status 2 before anything happens", "statement": "If the arguments of `sigstore sign`, `attest` or `verify` cannot be used (an input is missing or is no digest, options do not fit together, outputs exist without --overwrite, materials are missing or ambiguous, the predicate is not acceptable), the process exits with status 2, and no service is contacted, no key is made and no file is written; directories for outputs may have been made. `trust-instance` without `--instance` or without an existing file as bootstrap root is refused in the same way; otherwise it bootstraps that repository and succeeds if that does.", "quantifier": "all command lines, environments, file systems and states of the world", "why_tests_cant": "All combinations of options and of existing and missing files; also that an AttributeError in the code for digests cannot be reached.", "anchors": ["sigstore/_cli.py:_sign", "sigstore/_cli.py:_attest", "sigstore/_cli.py:_collect_verification_state", "sigstore/_cli.py:_invalid_arguments", "sigstore/_cli.py:_verify_github", "sigstore/_cli.py:_trust_instance"]}
{"id": "C101", "title": "Failures of Rekor surface as RekorClientError", "statement": "Every failure of a request to Rekor (v1 and v2) is raised as RekorClientError.", "quantifier": "all responses: every status, content and JSON document, and all connection failures", "why_tests_cant": "Arbitrary documents: members missing or of any type at any place.", "anchors": ["sigstore/_internal/rekor/client.py:RekorLog.get", "sigstore/_internal/rekor/client.py:RekorEntries.get", "sigstore/_internal/rekor/client.py:RekorEntries.post", "sigstore/_internal/rekor/client.py:RekorEntriesRetrieve.post", "sigstore/_internal/rekor/client_v2.py:RekorV2Client.create_entry", "sigstore/models.py:TransparencyLogEntry._from_v1_response"]}
{"id": "C102", "title": "What sigstore sign and attest leave behind is accepted by sigstore verify", "statement": "If `sigstore sign` or `sigstore attest` completed and nothing it left behind has changed since, then `sigstore verify identity` of any of the files, with their bundles where they were put, completes exactly if the signer's certificate was issued to the identity and claims the issuer that are given; provided that the services followed their specifications (SCTs dated between November 2004 and January 2038), the verifier trusts them, and the outputs were at different places that are no inputs.", "quantifier": "all command lines of both runs, file systems, environments, schedules of the signing threads, services, trust configurations and times of verification", "why_tests_cant": "Signing against real services is not repeatable, and tests cover single files; this quantifies over all interleavings of the threads that write the bundles, all names and options, and all honest answers.", "anchors": ["sigstore/_cli.py:_sign", "sigstore/_cli.py:_attest", "sigstore/_cli.py:_sign_common", "sigstore/_cli.py:_sign_file_threaded", "sigstore/_cli.py:_collect_verification_state", "sigstore/_cli.py:_verify_common", "sigstore/_cli.py:_verify_identity", "sigstore/sign.py:Signer", "sigstore/verify/verifier.py:Verifier"]}
{"id": "C103", "title": "Signing several files ends, and succeeds if everything is in place", "statement": "`sigstore sign` and `sigstore attest` end after finitely many steps under every fair schedule of their threads, whatever the services answer (no deadlock on the shared state); and they return normally under every fair schedule, and fail under no schedule, if the arguments are usable, files can be read and written, outputs are at different places, and the services are honest and answer while the certificate is valid.", "quantifier": "all fair schedules, numbers of files, file systems, answers of the services", "why_tests_cant": "Interleavings of arbitrarily many threads; a run that hangs or fails under a rare schedule is not found by tests.", "anchors": ["sigstore/_cli.py:_sign_common", "sigstore/_cli.py:_sign_file_threaded", "sigstore/_cli.py:_sign", "sigstore/_cli.py:_attest", "sigstore/sign.py:Signer"]}
{"id": "C104", "title": "Exactly which exceptions verification raises", "statement": "The exceptions that verify_artifact and verify_dsse raise, for bundles that Bundle.__init__ accepted and verifiers that Verifier.__init__ made, are exactly VerificationError, CertValidationError, ValueError, binascii.Error, CanonicalizationError, OSError, OverflowError, Error, AttributeError, InvalidEnvelope, MetadataError, struct.error, IndexError, ExtensionNotFound, TypeError and pydantic's ValidationError, besides those of the policy; those of the supplied policies are exactly VerificationError, ValueError, UnicodeDecodeError and ExtensionNotFound.", "quantifier": "all bundles, inputs, trusted roots, policies, times and behaviours of the crypto and parsing libraries", "why_tests_cant": "A caller who catches what tests exhibit misses the rest; the bound is a statement about every path of every helper.", "anchors": ["sigstore/verify/verifier.py:Verifier.verify_artifact", "sigstore/verify/verifier.py:Verifier.verify_dsse", "sigstore/verify/policy.py", "sigstore/_internal/sct.py:verify_sct", "sigstore/_internal/rekor/checkpoint.py:verify_checkpoint"]}
{"id": "C105", "title": "What was signed verifies with detached materials", "statement": "If `sigstore sign --signature S --certificate C` succeeded for a file, then S and C hold the signature and the certificate, and as long as they and the file are unchanged `sigstore verify` of the file (or of its SHA-256 digest) with S and C asks Rekor for exactly the entry with this signature, certificate and digest; it exits with status 2 if there is none, and if the log returns the entry it keeps, verification succeeds exactly if the policy accepts the signer's certificate.", "quantifier": "all files, disks, arguments, policies, schedules of the signing threads, honest services and trust roots", "why_tests_cant": "Two runs of the program with a log in between; every naming of inputs and outputs and every disk must be covered.", "anchors": ["sigstore/_cli.py:_collect_verification_state", "sigstore/_cli.py:_sign_common", "sigstore/_cli.py:_sign_file_threaded", "sigstore/models.py:Bundle.from_parts", "sigstore/_internal/rekor/__init__.py:_hashedrekord_from_parts", "sigstore/_internal/rekor/client.py:RekorEntriesRetrieve"]}
{"id": "C106", "title": "What `sigstore verify` reports is what it verified", "statement": "`sigstore verify` says `OK` of exactly the inputs it verified under the policy, in the order of their first mention up to the first that failed, and of that one it says `FAIL`; both name the input so that reading the name gives it back. Standard output holds nothing but statements of attestations that were verified for an argument, also if a later input fails. A success says `OK` of every argument and prints every statement. `verify identity` prints a statement as its text; `verify github` prints a Python bytes literal for it, which is never the statement itself.", "quantifier": "all arguments, files, policies, bundles, trust roots and behaviours of the services", "why_tests_cant": "Scripts read this output and cannot rerun the verification; a misleading line depends on a combination of inputs, duplicates, failures and bytes of statements and names.", "anchors": ["sigstore/_cli.py:_verify_identity", "sigstore/_cli.py:_verify_github", "sigstore/_cli.py:_verify_common", "sigstore/hashes.py:Hashed.__str__", "sigstore/errors.py:Error.log_and_exit"]}
{"id": "C107", "title": "A failed verification says so unless it is told to be silent", "statement": "With `SIGSTORE_LOGLEVEL` unset or a level known to Python in letters of any case, the variable changes neither the result nor the effects of `sigstore verify`, nor standard output and the `OK` lines; every error, in particular every `FAIL`, is written unless it is `CRITICAL` or `FATAL` and `--verbose` is not given, and every warning unless it is one of these or `ERROR`. If errors are not written, no log record is, so that a failed verification shows only in the exit status. With any other value no command runs at all: `ValueError`, without any output of the program.", "quantifier": "all values of the variable, verbosities, arguments, files, policies, bundles, trust roots and services", "why_tests_cant": "Every way a verification can end, times every level and verbosity.", "anchors": ["sigstore/_cli.py:main", "sigstore/_cli.py:_verify_identity", "sigstore/_cli.py:_verify_github", "sigstore/errors.py:Error.log_and_exit"]}
{"id": "C108", "title": "What `sigstore sign` and `sigstore attest` announce is true", "statement": "`sign` and `attest` print no certificate but one issued for their own fresh key that had not expired; each signing thread writes at most one record; a line that an output was written appears only if the whole command succeeds, and then the lines name exactly the outputs of every input, in the order of the first mention of the inputs. After success every announced path holds the bundle, signature or certificate for the content of the input it belongs to, the printed certificate is the one in every bundle, and the recorded log index is the one of the entry in the bundle.", "quantifier": "all arguments, files, schedules of the threads, tokens and behaviours of the services", "why_tests_cant": "The lines are printed by the main thread after others have written; whether they are true depends on every interleaving and on which paths lead to the same place.", "anchors": ["sigstore/_cli.py:_sign_common", "sigstore/_cli.py:_sign_file_threaded", "sigstore/_cli.py:_sign", "sigstore/_cli.py:_attest"]}
{"id": "C109", "title": "Exactly which exceptions signing raises", "statement": "Creating a Signer raises what `requests` raises, or one of ten exceptions: ExpiredIdentity, FulcioClientError, MetadataError, VerificationError, ValueError, TypeError, AttributeError, KeyError, IndexError, struct.error. With a Signer that holds a certificate, sign_dsse raises what `requests` raises for the log, or one of ten: ExpiredCertificate, RekorClientError, ValueError, AttributeError, KeyError, TypeError, binascii.Error, pydantic's ValidationError, InvalidBundle, IncompatibleEntry; sign_artifact raises these and Error. No other exception comes out, and every one of these does for some answers of the services. In particular no failure of a timestamp authority comes out.", "quantifier": "all contexts, clocks, tokens, inputs and behaviours of Fulcio, Rekor and the timestamp authorities", "why_tests_cant": "That nothing else is raised concerns all answers of all services; the exceptions are not documented.", "anchors": ["sigstore/sign.py:Signer._signing_cert", "sigstore/sign.py:Signer._finalize_sign", "sigstore/sign.py:Signer.sign_artifact", "sigstore/sign.py:Signer.sign_dsse", "sigstore/_internal/fulcio/client.py:FulcioSigningCert.post", "sigstore/_internal/rekor/client.py:RekorEntries.post", "sigstore/_internal/rekor/client_v2.py:RekorV2Client.create_entry"]}
{"id": "C110", "title": "What a bundle brings along without evidence does not influence verification", "statement": "Two bundles that agree in the leaf certificate, the contents, the timestamps, and the log entry (except position, time and promise if neither has a promise with a time) are accepted alike, fail with the same exception and yield the same payload, whatever else they contain: in particular the other certificates of the chain in a bundle are never used, and neither is the format.", "quantifier": "all pairs of bundles, inputs, policies, trust roots and clocks", "why_tests_cant": "That a field is not used is a statement about all its values in all bundles.", "anchors": ["sigstore/verify/verifier.py:Verifier._verify_common_signing_cert", "sigstore/verify/verifier.py:Verifier._establish_time", "sigstore/models.py:Bundle._verify", "sigstore/models.py:TransparencyLogEntry._verify"]}
{"id": "C111", "title": "What the log entry of an accepted bundle states was signed by a log", "statement": "If a bundle is accepted then the position and the time that its log entry states (`Bundle.log_entry`, log index and integrated time) were signed by a trusted log.", "quantifier": "all bundles, inputs, policies, trust roots and clocks", "why_tests_cant": "It concerns every value that an entry may state; tests use entries of real logs.", "anchors": ["sigstore/models.py:Bundle.log_entry", "sigstore/models.py:TransparencyLogEntry._verify", "sigstore/verify/verifier.py:Verifier._establish_time"]}
{"id": "C112", "title": "A signed artifact is no attestation", "statement": "The evidence for an artifact (certificate, signature, log entry, timestamps) is no evidence for an attestation: if verify_artifact accepts a bundle then verify_dsse accepts no bundle with the same log entry.", "quantifier": "all artifacts, payload types, payloads, bundles, policies, trust roots and clocks", "why_tests_cant": "An attacker chooses the artifact; tests use artifacts that are no encodings of statements.", "anchors": ["sigstore/verify/verifier.py:Verifier.verify_artifact", "sigstore/verify/verifier.py:Verifier.verify_dsse", "sigstore/verify/verifier.py:_validate_hashedrekord_v002_dsse_entry_body", "sigstore/verify/verifier.py:_validate_hashedrekord_v002_entry_body", "sigstore/dsse/__init__.py:_pae"]}
{"id": "C113", "title": "get-identity-token prints the token that signing uses", "statement": "`sigstore get-identity-token` prints exactly the text of the token that `sign` and `attest` would use with the same options, so that passing it on with `--identity-token` gives the same identity; if there is none it prints nothing, and it changes nothing but cached trust material.", "quantifier": "all options, environments, issuers, trust configurations and clocks", "why_tests_cant": "The command is interactive or depends on ambient credentials; the agreement is between two commands over all option combinations.", "anchors": ["sigstore/_cli.py:_get_identity_token", "sigstore/_cli.py:_get_identity", "sigstore/_cli.py:_sign_common", "sigstore/oidc.py:IdentityToken.__str__"]}
{"id": "C114", "title": "Offline runs use what the last online run obtained", "statement": "After a run has obtained trust material for an instance online, every later run with --offline uses this material (trusted root and signing configuration) until the next online run for the instance is made, whatever runs are made for other instances (for URLs that have a directory of their own, C47); update-trust-root succeeds only if the material can be used. A next online run that fails may leave files of two updates.", "quantifier": "all sequences of runs, instances, TUF repositories, and ways to write the URL", "why_tests_cant": "It is about sequences of runs over shared directories.", "anchors": ["sigstore/_internal/tuf.py:TrustUpdater", "sigstore/models.py:ClientTrustConfig.from_tuf", "sigstore/_cli.py:_update_trust_root"]}
{"id": "C115", "title": "Which words are a command line, and which one", "statement": "A sequence of words is accepted if and only if it writes a well-formed command line according to a small grammar (options by name or unique abbreviation, values joined with `=` or in the next word, repeated -v in one word, positional arguments together, `--` before arguments, nothing ambiguous for an outer parser); there is only one such line and the process does what it says. Everything else, so every unknown or misspelt option, ends the process with status 2, except that a word before `--` that asks for the help or the version gives status 0 (or an environment switch cannot be understood).", "quantifier": "all sequences of words, environments, libraries and states", "why_tests_cant": "Infinite set of argument vectors for three nested parsers with abbreviations, whose vocabularies interact.", "anchors": ["sigstore/_cli.py:main", "sigstore/_cli.py:_parser"]}
{"id": "C116", "title": "Protected command lines mean what they say, whatever the values are", "statement": "Every well-formed command line, written with full option names, values joined by `=`, and `--` before the positional arguments, is accepted and means exactly that line, whatever strings the values and arguments are. So if `sigstore verify identity --cert-identity=IDENTITY --cert-oidc-issuer=ISSUER -- FILES` exits with status 0, there is at least one file and every file was verified for IDENTITY and ISSUER. Without `--` this is false: a file name `-h` makes it exit with status 0 and verify nothing.", "quantifier": "all option values, file names, identities, issuers, environments, files and libraries that do not exit", "why_tests_cant": "All strings chosen by an adversary; composition of argument parsing with the whole verification.", "anchors": ["sigstore/_cli.py:main", "sigstore/_cli.py:_parser", "sigstore/_cli.py:_verify_identity"]}
{"id": "C117", "title": "The PKCE verifier goes to the token endpoint only", "statement": "During the OAuth flow nothing that is written, logged, answered by the local server or sent depends on the PKCE code verifier other than by its hash, except the one request to the token endpoint, which is the last output and carries it.", "quantifier": "all sessions, hash functions, requests to the local server, interleavings of the two threads, inputs", "why_tests_cant": "Noninterference between two runs over all interleavings.", "anchors": ["sigstore/oidc.py:Issuer.identity_token", "sigstore/_internal/oidc/oauth.py:_OAuthSession", "sigstore/_internal/oidc/oauth.py:_OAuthRedirectHandler"]}
{"id": "C118", "title": "The client secret goes to the token endpoint only", "statement": "During the OAuth flow the client secret appears in the request to the token endpoint only.", "quantifier": "all clients, sessions, requests to the local server, interleavings, inputs", "why_tests_cant": "Noninterference between two runs over all interleavings.", "anchors": ["sigstore/oidc.py:Issuer.identity_token", "sigstore/_internal/oidc/oauth.py:_OAuthSession"]}
{"id": "C119", "title": "How the local server answers each request", "statement": "In the browser flow, the responses of the local server are a function of the sequence of request targets, whatever the interleaving: the first redirect to /auth/callback is confirmed, the first request for / before it is redirected to the authorization URL of this session, a second one gets no response, everything else and everything after the redirect is 404; all requests are answered if the server thread runs long enough; the authorization URL is given out at most once.", "quantifier": "all request sequences, schedules, sessions and clients", "why_tests_cant": "All request sequences and all interleavings of two threads.", "anchors": ["sigstore/_internal/oidc/oauth.py:_OAuthRedirectHandler", "sigstore/_internal/oidc/oauth.py:_OAuthSession"]}
{"id": "C120", "title": "Credentials given by options or the environment are not shown", "statement": "The identity token and the OIDC client secret that are given on the command line or by environment variables are not written to the screen or the log.", "quantifier": "all command lines, environments and log levels", "why_tests_cant": "All command lines, environments and log levels.", "anchors": ["sigstore/_cli.py:main", "sigstore/_cli.py:_parser"]}
{"id": "C121", "title": "Evidence counts only from signers that were trusted when they made it", "statement": "When a bundle is accepted, the times that count lie within the validity periods which the trusted root gives for the timestamp authorities, logs and certificate authorities that vouch for them.", "quantifier": "all trusted roots, bundles, policies and clocks", "why_tests_cant": "All trusted roots and bundles; the negative part is a statement about pairs of verifiers and all bundles.", "anchors": ["sigstore/_utils.py:is_timerange_valid", "sigstore/models.py:TrustedRoot", "sigstore/verify/verifier.py:Verifier._verify_signed_timestamp", "sigstore/verify/verifier.py:Verifier._establish_time"]}
{"id": "C122", "title": "Any bundle causes only a bounded number of expensive operations", "statement": "Whatever the bundle, a verification validates at most 32 timestamps per trusted authority, builds at most 33 certificate paths, tries at most one signature per CT key, two per Rekor key and one of the certificate, and hashes at most 66 nodes of a Merkle tree.", "quantifier": "all bundles, trusted roots, inputs, policies and clocks, accepted or rejected", "why_tests_cant": "A bound over all bundles, including hostile ones.", "anchors": ["sigstore/verify/verifier.py:Verifier._verify_timestamp_authority", "sigstore/verify/verifier.py:Verifier._verify_common_signing_cert", "sigstore/_internal/trust.py:Keyring.verify", "sigstore/_internal/merkle.py:verify_merkle_inclusion"]}
{"id": "C123", "title": "Exit status 2 means unusable arguments, or no log entry for detached materials", "statement": "Every command ends with status 0, 1 or 2. Once the command line is accepted, `sign`, `attest` and `trust-instance` end with 2 exactly if their arguments are unusable; `verify` also if the log has no entry for a detached certificate and signature; `get-identity-token`, `fix-bundle` and `update-trust-root` never do.", "quantifier": "all command lines, environments, file systems, libraries that do not end the process, services and schedules", "why_tests_cant": "Which errors can reach the top of the program, from any step, whatever the inputs and answers.", "anchors": ["sigstore/_cli.py:_invalid_arguments", "sigstore/_cli.py:_fatal", "sigstore/_cli.py:_collect_verification_state", "sigstore/_cli.py:main", "sigstore/errors.py:Error.log_and_exit"]}
{"id": "C124", "title": "Verifying several inputs at once is verifying each of them", "statement": "Without `--certificate`, `--signature` and `--bundle`, `sigstore verify` of several inputs ends with status 0 if and only if `sigstore verify` of each of them alone does, with the same trust configuration. So neither the order of the inputs nor naming one twice matters, and no input hides the failure of another.", "quantifier": "all lists of inputs, file systems, trust configurations, libraries that do not end the process, policies and states of the services", "why_tests_cant": "All lists of inputs, in all orders, with every way each can fail.", "anchors": ["sigstore/_cli.py:_collect_verification_state", "sigstore/_cli.py:_verify_identity", "sigstore/_cli.py:_verify_github"]}
{"id": "C125", "title": "What `sigstore verify` verified is what it read, once, even while the files change", "statement": "Suppose every access to the file system during a run of `sigstore verify` sees different files. If the run succeeds, then the only files opened are the trust configuration and, for each input in order, the artifact and its bundle (or certificate and signature), each exactly once; each argument denotes a file or a digest at the moment it was tested; and the verification accepts the contents returned by those very reads. So a file that keeps its content during a run with status 0 was verified with that content, whatever happens to all other files. If nothing changes, the run is the one of C44.", "quantifier": "all sequences of file systems (one per access), arguments, trust options, libraries, policies and states of the services", "why_tests_cant": "All interleavings of another process's writes with the accesses of a run, for all inputs.", "anchors": ["sigstore/_cli.py:file_or_digest", "sigstore/_cli.py:_collect_verification_state", "sigstore/_cli.py:_verify_common"]}
{"id": "C126", "title": "A verdict rests on few checks, all about what is trusted", "statement": "Record every check of a signature, a timestamp or a path that a verification makes, with its arguments. Libraries that answer the recorded checks alike, and everything else differently, lead to the same verdict. Each recorded check asks about the bundle's own certificate with the trusted authorities, about the bundle's own timestamps and signature with a trusted timestamp authority, or about a signature with the key of a trusted log or of the bundle's certificate. So no other key, authority or certificate has any influence.", "quantifier": "all bundles, inputs, trusted roots, policies, times and all pairs of libraries", "why_tests_cant": "A comparison of all pairs of runs with all libraries.", "anchors": ["sigstore/verify/verifier.py:Verifier.verify_artifact", "sigstore/verify/verifier.py:Verifier.verify_dsse", "sigstore/_internal/trust.py:Keyring.verify", "sigstore/verify/verifier.py:Verifier._verify_signed_timestamp"]}
{"id": "C127", "title": "The command line and the library agree", "statement": "For a file and a bundle without an envelope, `sigstore [--staging] verify ... [--offline] --bundle BUNDLE FILE` ends with status 0 exactly if the same program written with the library succeeds: read both files, `Bundle.from_json`, `Verifier.production(offline=...)` or `Verifier.staging(offline=...)`, `verify_artifact` with the policy of the command. For a bundle with an envelope: exactly if `verify_dsse` returns an in-toto statement that has the input as a subject (and is text, if the command prints it).", "quantifier": "all file systems, arguments, bundles, states of the TUF client, policies, and libraries that do not end the process", "why_tests_cant": "An equivalence of two programs for all inputs and all answers of the services.", "anchors": ["sigstore/verify/verifier.py:Verifier.production", "sigstore/verify/verifier.py:Verifier.staging", "sigstore/models.py:ClientTrustConfig.production", "sigstore/models.py:ClientTrustConfig.staging", "sigstore/_cli.py:_verify_identity", "sigstore/_cli.py:_verify_github"]}
{"id": "C128", "title": "The clock may move during a verification", "statement": "The clock is read once for each certificate authority, timestamp authority and log of the trusted root, and may show another time at each reading. As long as nothing in the trusted root begins to be valid in between, the outcome of making a verifier and verifying an artifact or an attestation is that with one reading for all. However the clock moves, keys and certificates that are not yet valid at any reading have no influence on the outcome.", "quantifier": "all clocks (also set back), trusted roots, bundles, inputs, policies, libraries", "why_tests_cant": "Tests freeze the clock, or cannot move it between two readings of one call.", "anchors": ["sigstore/_utils.py:is_timerange_valid", "sigstore/models.py:TrustedRoot._get_tlog_keys", "sigstore/models.py:TrustedRoot.get_fulcio_certs", "sigstore/verify/verifier.py:Verifier._verify_signed_timestamp"]}
{"id": "C129", "title": "`sigstore sign` next to other programs that change files", "statement": "While other programs change files at any moment: without `--overwrite`, `sigstore sign` overwrites no file that is at the place of an output when it gets there; it changes nothing but its outputs (and missing directories); and a successful run leaves for every input a bundle of what the input was at one moment of the run, with one key and one certificate.", "quantifier": "all schedules of the threads, all changes of others between any two steps, all file systems, options, answers of the services", "why_tests_cant": "It is about every interleaving with programs that are not under test.", "anchors": ["sigstore/_cli.py:_sign", "sigstore/_cli.py:_sign_common", "sigstore/_cli.py:_sign_file_threaded"]}
{"id": "C130", "title": "Signing that outlasts its certificate", "statement": "Whatever time the services take to answer, a bundle that sign_artifact or sign_dsse returns is accepted by verification for what was signed: signing fails rather than return a signature whose time is outside the certificate's validity.", "quantifier": "all inputs, keys, log contents, times of the services and of the clock, trusted roots and policies", "why_tests_cant": "Tests do not wait for certificates to expire, and the claim is about all timings of all services.", "anchors": ["sigstore/sign.py:Signer._signing_cert", "sigstore/sign.py:Signer._finalize_sign", "sigstore/verify/verifier.py:Verifier._verify_common_signing_cert"]}
{"id": "C131", "title": "Stopping in the middle spoils no output", "statement": "Whenever sign or attest stops, also with an error or because it is killed, every output is either as it was before or holds completely what belongs to its input, and the outputs of one input belong together.", "quantifier": "all inputs, disks, schedules of the threads and points at which the command stops", "why_tests_cant": "Tests run commands to their end and do not enumerate the points at which several threads can be interrupted.", "anchors": ["sigstore/_cli.py:_sign_file_threaded", "sigstore/_cli.py:_sign_common", "sigstore/_cli.py:_sign", "sigstore/_cli.py:_attest"]}
{"id": "C132", "title": "Signatures of others on a checkpoint change no verdict", "statement": "Adding signatures of others, such as witnesses, to the checkpoint of a bundle, at any position, changes neither whether the bundle is accepted nor the exception nor the payload.", "quantifier": "all bundles, checkpoints, lists of signatures, trusted roots and policies", "why_tests_cant": "Tests use recorded checkpoints with one or two signatures; the claim is about every number, order and content of further signatures.", "anchors": ["sigstore/_internal/rekor/checkpoint.py:SignedNote.verify", "sigstore/_internal/rekor/checkpoint.py:verify_checkpoint"]}
{"id": "C133", "title": "Processes that share the cache of trust material", "statement": "Whatever other sigstore processes for the same TUF repository do at the same time, and wherever they are killed: an online process that succeeds uses the trusted root and signing config that its repository lists, and an offline process can use the material of the package or of the last complete download.", "quantifier": "all numbers of processes, initial caches, failing writes, interleavings at every access and byte, and points at which processes stop", "why_tests_cant": "Tests run one process on a fresh or prepared cache; the claim is about every interleaving and every interruption.", "anchors": ["sigstore/_internal/tuf.py:TrustUpdater.__init__", "sigstore/_internal/tuf.py:TrustUpdater.get_trusted_root_path", "sigstore/_internal/tuf.py:TrustUpdater.get_signing_config_path", "sigstore/models.py:ClientTrustConfig.from_tuf"]}
{"id": "C134", "title": "Redirects carry no secrets elsewhere", "statement": "Services that redirect requests, however they do it, cannot make the client send the identity token, the client secret, the authorization code or the PKCE verifier to another service than the one that it is for.", "quantifier": "all services, with answers that depend on everything sent before; all chains of redirects, URLs, tokens, secrets, contents of ~/.netrc, signing sessions of any length", "why_tests_cant": "Tests mock the sessions and never redirect; the claim is about every service and every chain of redirects.", "anchors": ["sigstore/_internal/fulcio/client.py:FulcioSigningCert.post", "sigstore/_internal/rekor/client.py:RekorEntries.post", "sigstore/_internal/timestamp.py:TimestampAuthorityClient.request_timestamp", "sigstore/oidc.py:Issuer.identity_token"]}
{"id": "C135", "title": "A digest is of a content that the file had", "statement": "While other programs change a file that is being signed or verified, the digest that is signed or verified is that of a content that the file had at some moment.", "quantifier": "all sequences of contents, all sizes of readings of the operating system, all numbers of readings", "why_tests_cant": "Tests digest files that do not change; the claim is about every moment at which another program may write.", "anchors": ["sigstore/_utils.py:_sha256_streaming", "sigstore/_utils.py:sha256_digest", "sigstore/_cli.py:_sign_file_threaded", "sigstore/_cli.py:_collect_verification_state"]}
{"id": "C136", "title": "Statements are read back from their text", "statement": "The bytes of a statement that was built are JSON text of it, and reading these bytes gives the same statement; so whatever attest signs can be read when it is verified, and matches the digest of its input.", "quantifier": "all subjects, predicates of any depth, texts with any characters, all bytes, all limits of the reader", "why_tests_cant": "Tests read back a few statements; the claim is about every document, with characters that need escapes and objects within each other to any depth.", "anchors": ["sigstore/dsse/__init__.py:Statement.__init__", "sigstore/dsse/__init__.py:StatementBuilder.build", "sigstore/_cli.py:_attest"]}
