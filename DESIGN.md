# Formal model of the Tink Python library

Subject: `/repo/python/tink` (Python) and the C++ stream adapters it is built on
(`/repo/python/tink/cc`), the C++ streaming AEAD and the C++ key managers and primitives for symmetric keys,
signatures and hybrid encryption (`/repo/cc/subtle`, `/repo/cc/aead`, `/repo/cc/daead`, `/repo/cc/mac`, `/repo/cc/prf`,
`/repo/cc/signature`, `/repo/cc/hybrid`, `/repo/cc/jwt/internal`), the example programs
(`/repo/python/examples`), and the functions of `/repo/python/setup.py` that read and rewrite files. The code was read as text; nothing was run.

## Trusted base

* Lean 4.33.0's kernel. Theorems depend on at most the axioms `propext`,
  `Classical.choice`, `Quot.sound`. No `sorry`, no own axioms, no
  `native_decide`, no `bv_decide`.
* The reading of the source: each definition cites the file and lines it models.
* Python, protobuf and C++ semantics as described in "Modelling conventions".
* BoringSSL, KMS
  servers, random generators and clocks are parameters. (So are all C++ key managers in C01 to
  C66; C67 to C71 define those for streaming AEAD, C89 to C95 those for the other
  symmetric keys, C96 to C99 those for signature keys, C100 to C102 those for hybrid
  encryption; only C103 assumes that BoringSSL's public keys are those of P-256 and X25519.) Whatever is assumed of
  them is an explicit hypothesis of the theorem that uses it, and an `example`
  next to the theorem exhibits a concrete instance satisfying it.
* For C112 and C114: CPython runs one thread at a time, and switches only between reads of class attributes, `in`, lookups and
  assignments of the registry's dictionaries, each of which happens in one go. Methods of key managers and wrappers do not
  use the registry. For C113 likewise `append`, `clear` and the step of a loop over the list of clients. All other
  properties are for calls that no other thread disturbs.

## Modelling conventions

* `bytes` is `List UInt8` (`Bytes`). A Python `str` is a list of code points
  (`PyStr = List Nat`), surrogates allowed. A proto `string` field is a list of
  Unicode scalar values (`List Char`).
* Exceptions are values: `Except Exc α`. `Exc` has a constructor per exception
  class that the code can raise or catch; `Exc.isTink` is
  `isinstance(e, TinkError)` (true of `TinkError` and `JwtInvalidError`).
  Messages are dropped, unless stated.
* Randomised operations take an explicit seed argument, universally quantified.
* proto messages are records; open enums are their 32-bit pattern (`UInt32`); submessage
  presence is `Option`; uint32 fields are `UInt32`. Message types other than those of
  `tink.proto` are generated by `tools/protogen.py` from the `.proto` files
  (`Verif/Proto/Gen.lean`).
* Mutable objects become state passed and returned. `while` loops are structural
  recursion or carry fuel; where fuel is used the theorem says what happens for
  every fuel.

## Plan per property

Wrappers (`Verif/Core`, `Verif/Wrap`; properties in `Verif/Props`)

* C01-C03, C04, C13: model `PrimitiveSet` as insertion-ordered dict of lists and
  the wrapper loop branch by branch. Prove a characterisation of decrypt as
  "first non-TinkError outcome over the candidate list" with the candidate list
  specified independently as filters of the keyset; derive soundness,
  completeness, round trip; give witnesses for C04 and C13 negations.
* C05-C09: same candidate-list specification instantiated per primitive; LEGACY
  data suffix for MAC and signatures.
* C10: fold into a dict, last wins; specification by `find?` from the end.
* C11: arithmetic on big-endian bytes.
* C12: rotation histories as lists of edits on a keyset, corollary of C01/C07/C09.
* C14: refinement of the dict-of-lists to the list of additions.

Registry and handles (`Verif/Core/Registry.lean`, `Verif/Keyset`)

* C15-C18: registry state machine, invariants by induction over histories.
* C19-C21, C23, C27: model of `_keyset_handle.py`, with the registry as state.
* C22, C24-C26, C28: readers, writers and formats over the wire model; the
  AEAD is a parameter.
* C29-C30: concrete protobuf wire format for the messages of `tink.proto`,
  parse after serialize by induction.

KMS (`Verif/Kms`)

* C31-C34: envelope AEAD with a log of remote calls.
* C35: client list as a state machine.
* C36-C38: string level models of the three integrations; regexes modelled by
  hand written matchers with a declarative language specification.

JWT (`Verif/Jwt`)

* C39-C40: base64url codec on lists, bit arithmetic.
* C41-C44: compact serialization, header validation, HMAC/signature key managers
  with the primitive as parameter, wrappers.
* C45-C46: validator, times as integer microseconds.
* C47-C50: raw JWT, JSON parser/printer modelled concretely; floats through a
  parameter record with stated laws.
* C51-C52: JWK converter over the JSON model and the wire model.

* C62-C63: JSON keysets over the JSON model; `google.protobuf.json_format` is modelled for the messages
  of tink.proto that are read or written, from knowledge of it (its source is not in the sandbox;
  requirements.in allows 3.20.2 up to below 5). `JsonFormatEnv` holds what is left open: `int` of a
  string, `is_integer` and truncation of floats, and whether `Parse` converts every exception.

`json.loads` and `json.dumps` of CPython are modelled from its source (`Verif/Json`), down to
characters. Simplifications: one recursion limit (`JsonEnv.depth`) for reading and writing; errors
carry no text or position; floats are a parameter, of which the round trip assumes
`Spec.LawfulFloats` and the validator `Spec.LawfulTimes`.

JWT key managers pass serialized keys to C++ key managers, which are parameters
(`Jwt.CcKeyManager`, `Jwt.Library`). That the registry holds Tink's managers is an assumption of
C41-C44 (`Spec.MacManagers` etc.), shown to hold after any registrations by `C43_registered`. The clock does
not advance during one call. Of `str.upper` the theorems assume only what it does to ASCII
(`Spec.LawfulUpper`).

A `datetime` is the time it shows, in microseconds, and its zone, a function from times shown to
distances from UTC; `fold` and zones without an offset are left out. The clock is an argument.

Streaming (`Verif/Stream`)

* C53: rewindable stream against an adversarial source.
* C54: decrypting stream wrapper with key streams as parameters.
* C55-C56: the C++ adapters as state machines.
* C57: raw decrypting stream; non-termination as "no fuel suffices".
* C67-C69: the C++ classes below the streams (`/repo/cc/subtle`): `StreamingAeadEncryptingStream` and
  `StreamingAeadDecryptingStream` (`Stream/Segments`), `NonceBasedStreamingAead` and how Python reaches
  it (`Stream/CcStreaming`), the segment encrypters and decrypters of AES-GCM-HKDF and AES-CTR-HMAC keys
  (`Stream/SegmentCrypters`). AES-GCM, AES-CTR, HMAC, HKDF and the random generator are
  `SegmentLibrary`. Round trip: invariants that relate the buffers of a stream to what is left of the
  plaintext (`Spec.Matching`, `Spec.EncryptionOf`), then composition with C55-C57 and C54. Authenticity:
  an invariant for any source at all. What is assumed of the cryptography is in `Spec/SegmentCrypters`.
  `LawfulLibrary.gcmLast` and `hmacLast` (a last segment does not pass for another) are idealisations;
  `GcmIdeal` and `CtrHmacIdeal` are the ideal world in which decryption or verification succeeds only
  for what was encrypted; a message that is not finished counts as any message that it could become.
  Left out: the FIPS check, null pointers, failing allocations. `int`s of C++ are unbounded here.
  When a key refuses a ciphertext is reduced to its header and first segment (`Spec/StreamingForeign`); this replaces
  the assumption about other keys in the round trips of C87 and C109 (`Props/StreamingForeign`). In
  `Examples/ToyKeyed` keys of the same size refuse each other's ciphertexts.

* C70: the C++ key managers of the two streaming key types (`/repo/cc/streamingaead`) over the wire
  model, on the template `KeyManagerImpl` of `/repo/cc/core/key_manager_impl.h`
  (`Core/KeyTypeManager`, `Stream/StreamingKeyManagers`). What formats and keys are good is written out
  in `Spec/StreamingKeys` without reference to the order of the checks.

* C71: `io.BufferedReader` and `io.BufferedWriter` are relations (`Stream/Buffered`) that leave open when
  the raw stream is called and for how many bytes, so that both implementations of CPython are cases of
  them. A history of the buffered stream gives one of the raw stream, to which C54, C67 and C68 apply;
  for writing, an invariant: what was written and what waits is what was passed to `write`, or the C++
  stream has failed for good, so that `close()` will raise. `Examples/ToyBuffered` has programs whose
  runs are instances. Left out: `peek`, `readline`, `seek`, `detach`.
* C72: sources and destinations that count how often they are closed; an invariant over histories of
  `read` and `close()`, in which streams of keys may be garbage collected at any time (`Stream/Closing`).
* C73: a status of the C++ stream other than OK is never left again; so a key's stream fails for good, and
  with it that of a keyset. For the buffered reader an invariant: what it still has after a failure are the
  next bytes of the message.
* C83: for the encrypting side an invariant over histories with failing calls: what the destination recorded is
  a prefix of header and segments none of which was encrypted as the last one (`Stream/InterruptedLemmas`).
  For the reading side: what could become each of two messages that differ after `P` is never taken for more
  than a prefix of `P` without end. A crash is a prefix of the record.

Code on the reading side is an interaction tree (`Prog`: return, ask the source for `n` bytes, or out of
fuel), so that one definition can be run with every source; contracts are relations over histories of
calls (`Spec.Session`, `Spec.StreamHistory`).

Other

* C74: `Spec/KeysetFormat` has the messages of `tink.proto` as one table, with field numbers, names and
  enum values, and four interpretations of it: the canonical bytes, the canonical JSON document, and, as
  predicates, the bytes and documents that any writer may produce. It has its own varint, UTF-8 and base64.
  Proved equal to the wire and JSON models for writing; for reading by a fold over the fields.
* C75: `Spec/KeyFormats` has the key formats and keys as bytes, with the field numbers of the `.proto` files;
  equality with what the creating functions and `SerializeToString` of the generated messages yield.
* C76: `Jwt/Verified` has the methods of `RawJwt`, `VerifiedJwt` and `JwtValidator` by name; what they return
  follows from what `RawJwt.__init__` and the validator have checked; composition of C41 and C47.
* C77: `Heap/Objects` has lists and dicts as objects at addresses, `Heap/Jwt` the functions of `_raw_jwt.py`
  over them. Invariant over all programs: the objects of tokens and those that the program can reach are
  separate. The functions agree with those of `Jwt/Raw`, which have values.
* C78: the same for `Keyset` messages, handles and builders (`Heap/Keyset`), without the inner structure of a
  message: a program that has got hold of a part of a message counts as having got hold of the message.
* C79: sources that come to an end are described by a bound on the bytes and pauses still to come
  (`Spec.Exhaustible`). `Stream/TerminationLemmas` shows for the C++ and Python loops of one key that the fuel
  of the model suffices, by a lexicographic measure: what the source can still deliver, whether a last segment
  is to come, and the plaintext that was backed up; more fuel does not change a result (`Prog.Le`).
  `Stream/TerminationWrapper` does the same for the keys of a keyset and for the buffered reader, of
  which only finitely many calls in a row can return bytes (`C79_reading_ends`). Together with C71 this makes total correctness (`C79_like_file`).
* C80: destinations are described by a bound on how often they accept nothing (`Spec.Progresses`);
  `Stream/WritingLemmas` bounds the fuel as in C79. `Stream/WritingSuccess` has the invariant that nothing has
  failed, over the structure `LawfulOut` of C56 and C67 with "more was written than the limit" as the only way to
  fail; `Stream/WritingLimits` derives the limit of 2³² segments from the counter.
* C81: `Spec/JsonGrammar` is the grammar of RFC 8259 as inductive relations between text and value, without the
  functions of the model. `Json/Grammar` proves the scanner of `Json/Decode` sound and complete for it, by recursion
  on the depth and the fuel.
* C82: `Spec/TokenText` states the compact form on the level of bits (base64url), code points (UTF-8) and the
  grammar of C81; `Jwt/TokenText` proves the decoding functions equivalent to it, and that `decodeWithKid` accepts
  exactly the right tokens (`decode_iff`).
* C58: digits of a number in base 256.
* C59: builder state machine.
* C60: templates and wire format.
* C64: the functions `register` as lists of statements (`Verif/Config`); an invariant over histories
  (Tink's entries, where present, are the right ones) by induction. What C++ and the Python classes
  provide is `Config.Library`; what is assumed of them is `Spec.LawfulConfig`.
* C65: the classes `…CcToPyWrapper` and `CcKeyManager` of `cc_key_manager.h` over the wire model, with
  C++ key managers and primitives as parameters that return a value or a status.
* C66: composition of C64, C65 and the round trips of C01, C05, C06, C07, C09, C10; for streaming AEAD
  with C67 and C70, so that the C++ primitive is modelled too.
* C84: the programs of `python/examples` as state transformers on files, a cloud storage and the state of a KMS
  (`Verif/Cli`); what the operating system allows is a parameter (`Os`). `Spec/Cli` says what a run may leave
  behind; each program is taken apart step by step (`Cli/Steps`), round trips compose two or three runs.
* C85: C51 and C82 composed: the imported keys correspond to the enabled keys of the original, and acceptance is
  stated by right tokens (`C82_signature_iff`, with `Jwt/OrderLemmas`: a key that does not accept a token another
  key accepts refuses it with a `TinkError`). `Jwt/FreshLemmas` computes the registry of a new process.
* C86: the programs of `python/examples/jwt` in the same way as those of C84 (`Cli/Jwt`). The round trip composes
  C41 (the key wherever it is), C51, C82 and C85; the converse reads the payload of the signed token (C82) and
  computes when the validator accepts it.
* C87: `streaming_aead_cli` as a relation between worlds, since the buffered streams are relations (`Cli/Streaming`);
  the disk is a parameter that says which reads and writes fail. `Cli/StreamingLemmas` follows the two loops and takes
  the program apart, `Cli/StreamingRuns` composes this with C54, C67, C71, C79 and C80; keys of a keyset are identified
  through the registry that `register()` leaves (C64). That the program ends whatever happens is `C87_ends`.
* C88: the functions of `python/examples/walkthrough` (`Cli/Walkthrough`) and `testing/fake_kms.py` (`Kms/Fake`).
  KMS clients are arbitrary (`KmsGives`, `KmsRaises`); the keyset that `GetKmsAead` generates is traced through the
  registry that `register()` leaves, C20, C24, C60 to C62; envelope keysets through C34. The registry in which
  `KmsEnvelopeAead` looks up data keys is a field of the library, to avoid a registry that contains itself; the
  theorems assume that the data key types are registered there, which `aead.register()` does (`registered_dek`).
* C89 to C93: `Cc/Subtle`, `Cc/AesEax`, `Cc/AesSiv`, `Cc/Prf` are the primitives of `/repo/cc/subtle`, over a BoringSSL
  (`Cc/Ssl`) that offers the AES block function, `EVP_AEAD`s, HMAC, CMAC and random bytes; `Cc/KeyManagers` the key
  managers and registrations. `Spec/BlockModes` has counter mode, CMAC, OMAC, EAX and SIV as published, `Spec/Hkdf`
  RFC 5869, `Spec/SymmetricKeys` which keys there are and which are strong enough. `Cc/BlockLemmas` and `Cc/CmacLemmas`
  prove that the code computes the published modes, `Cc/PrimitiveLemmas` exactness of each primitive,
  `Cc/Descriptions` and `Cc/Manages` what each key manager accepts and makes. Left out: FIPS mode, failures of
  allocation, and differences between statuses of the library.
* C94: C64 and C65 for the way from a keyset to its primitives, C01 to C10 for the wrappers, C89 to C91 for each key;
  templates are evaluated one by one (`Cc/TemplateLemmas`).
* C95: `Cc/JwtHmac` is the raw JWT HMAC key manager of `/repo/cc/jwt/internal`, as bound to Python; `Jwt/MacKeyLemmas`
  follows `register_jwt_mac` through histories of registrations and puts the Python key manager on top of it; C41 and
  C82 are used for tokens, C60 for templates. `Spec/JwtMacKeys` has the algorithms of RFC 7518, section 3.2.
* C96, C97: `Cc/Signatures` has the primitives of `/repo/cc/subtle`, over a BoringSSL (`Cc/SigSsl`) that offers curve
  arithmetic, ECDSA on digests, DER, Ed25519, RSA key generation and checks, RSA with PKCS1 padding, raw RSA and PSS
  padding; `Cc/SigKeyManagers` the key managers and registrations. `Spec/SignatureKeys` says which keys there are, which
  are acceptable and which signatures are valid, with DER as in X.690, and what is assumed of BoringSSL
  (`LawfulSigSsl`). `Cc/SigDescriptions` and `Cc/SigManages` prove what each key manager accepts and makes. Left out:
  FIPS mode, failures of allocation, `DeriveKey`, differences between statuses of the library.
* C98: keysets of these keys, over any library whose C++ key managers for signature keys are those of
  `Cc/SigKeyManagers`. `Spec/SignatureKeysets` says what a public key accepts and what the public counterpart of a
  private key is; the theorems compose C09, C08, C27 and C64 to C66 with C96 and C97.
* C99: `Cc/JwtSignatures` are the six raw JWT key managers for signatures of `/repo/cc/jwt/internal`, over the primitives
  of C97; `Cc/JwtSigDescriptions` and `Cc/JwtSigManages` prove what they accept and make. `Spec/JwtSignatureKeys` has the
  algorithms of RFC 7518, section 3.1, and which keys stand for which; `Jwt/SigKeyLemmas` follows
  `register_jwt_signature` through histories and puts the Python key managers on top. C41 and C82 are used for tokens,
  C27 for public keysets, C60 for templates.
* C100, C101: `Cc/Hybrid` has ECIES and HPKE of `/repo/cc/hybrid` and the KEMs of `/repo/cc/subtle`, over a BoringSSL
  (`Cc/HybridSsl`) that offers curve arithmetic, X25519, HKDF and the `EVP_HPKE` functions; `Cc/HybridKeyManagers` the
  key managers. A computation may end with a result, a status, `std::out_of_range` or the end of the process (`Run`); the
  last two become an error of their own at the level of primitives. `Spec/HybridKeys` says which keys there are, which
  are acceptable, how points are encoded (SEC 1), which ciphertexts a key makes and decrypts, with HKDF as in RFC 5869,
  and what is assumed of BoringSSL (`LawfulHyb`). `Cc/HybridDescriptions` and `Cc/HybridManages` prove what each key
  manager accepts and makes. Left out: the inside of HPKE, FIPS mode, failures of allocation, differences between
  statuses of the library.
* C102: keysets of these keys, over any library whose C++ key managers for hybrid keys are those of
  `Cc/HybridKeyManagers`. `Spec/HybridKeysets` says which texts a private key makes of a ciphertext and what the public
  counterpart of a private key is; the theorems compose C06, C27 and C64 to C66 with C100 and C101.
* C103: the programs with keysets written out in them (`Cli/Basic`), in a new process. The texts are read by the model
  of the JSON parser, for all limits (`RoomForKeysets`); that the keys are acceptable and belong together is evaluated in
  the kernel, with scalar multiplication on P-256 and X25519 as in `Spec/Curves`; the rest follows from C94, C98 and C102.
* C104: the model of `_kms_envelope_aead.py` (C31-C34) with the registry of C64 and the key managers of C89-C91. The
  theorems speak of stored keys and ciphertexts (`AeadKey.StoredIn`, `AeadKey.ciphertext`) and of what the server
  returns, not of primitives; proof by composition of C32, C34, C89, C90 and C91.
* C105: `Testing/Helper` models `testing/helper.py`. `bytes.split` is modelled by recursion; its parts are characterized
  in `Testing/HelperLemmas`, from which the theorems follow by case distinction.
* C106: `Kms/Credentials` models the constructors with a credentials path, `_parse_config` and `register_client`; what
  `configparser` makes of a file, boto3 and the Google libraries are parameters. `Spec/Credentials` says which credentials a
  call registers for a key. The theorems about histories follow from C35 and C37 by induction over the calls.
* C107: `Testing/BytesIO` models `testing/bytes_io.py` (without `seek`) over a model of `io.BytesIO`. The two slow streams
  are instances of one step relation, from which the theorems follow by induction over the reads.
* C108: `encrypted_keyset_cli.py` in the same way as the programs of C84 (`Cli/EncryptedKeyset`), with `_encrypt` and
  `_decrypt` for an AEAD that is a server with a state (`Keyset/Remote`). What the Google library makes of the `str` given
  as associated data is a parameter. The round trip composes the theorems about single runs with C62, C66 and C29.
* C109: histories of builder calls as in C59, between `from_keyset_handle` and `keyset_handle` (`Spec/Rotation`). The keys
  are followed through the history with an invariant for single calls (`KeyStep`, `keyStep_invariant`); the rest composes this with
  C94, C98, C102, C95 and C99 for the rotated keyset. Ciphertexts and tags of revoked keys are recognised by the prefix,
  which determines the key id (C11), tokens by the kid. For streaming AEAD it composes C71 and C70; that the first byte of a
  ciphertext, the size of its header, tells keys of different sizes apart follows from C69.
* C110: `python/setup.py` (`Setup/Setup`), with the functions on `str` that it calls (`Setup/Text`) and the file system of C84.
  Patching twice is reduced to occurrences: the line that loads the rule does not overlap with the local rule, so replacing
  keeps it, and no end of the new rule can begin a local one, so none is left (`Setup/Lemmas`). Requirements files are given
  by a grammar (`Spec/Setup`), and reading them is shown to be that relation. The loop over the protocol buffers keeps the
  invariant that the outputs made so far are current.
* C111: C51, C99 and C109 together. A public key is determined by its algorithm and its two numbers, which is what a JWK
  carries, so exported and imported key data hold the same key for the C++ key managers (`Props/JwkRotation`); no assumption
  about the C++ library as in C85 is left.
* C112: each call of the registry is a program of atomic steps (`Core/RegistryThreads`); a schedule starts calls and lets any
  of them take a step. Properties by rely/guarantee reasoning over all schedules (`Core/RegistryThreadsLemmas`); calls that
  fail are removed from a schedule by a simulation (`Props/RegistryThreadsFailed`). C15-C18 are for one thread; a call that is
  not interrupted is the call of C15-C18.
* C113: the loop over the list as a state with an index that is compared with the present list at each step
  (`Kms/ClientThreads`); invariant over all schedules (`Props/ClientThreads`).
* C114: the calls of the registry in the statements of `register()` (as for C64), started and interleaved as in C112
  (`Spec/SetupThreads`); invariant over all schedules that under Tink's type URLs and classes there are only Tink's entries
  (`Props/SetupThreads`; for JWTs `Props/SetupThreadsJwt`, where `C114_jwt_calls` ties the calls to the model of C43).

No property is planned as not applicable.

## How keyset primitives are stated

* All primitive objects live in one type `P`; `View P A` picks out those of an interface `A`
  (`view (inj a) = a`). This lets one registry hold key managers of every kind.
* `Spec.Obtained isInst W r h c kps p` says: `p` is what `h.primitive(c)` returned, `W` is the wrapper
  registered for `c`, and `kps` lists the enabled keys with the primitives the registry makes of them.
* `Spec.payload`, `Spec.tryOrder` and `Spec.firstNonTink` describe the search over keys without
  mentioning primitive sets.

## Where the code and a stated property disagree

Each was found by reading the code and proved of the model; the code was not run.

* C04: a prefixed key whose own ciphertext is empty cannot be read back, since the wrappers test
  `len > 5`. Witness `C04_round_trip_fails_when_empty`; the round trip carries the condition.
* C07: a RAW key with a tag of at most 5 bytes: `compute_mac` succeeds, `verify_mac` refuses.
  Witness `C07_short_raw_tag_fails`.
* C13: an exception other than `TinkError` from one key ends the search. Witnesses
  `C13_*good_key_hidden`.
* C24, C25: a master AEAD that returns an empty ciphertext passes the check made on writing, but
  reading refuses. Witness `C25_empty_ciphertext_unreadable`. The English of C24 first omitted the
  condition; it was added after the proof attempt.
* C96: the salt length of RSA-SSA-PSS has no upper limit. A format may ask for a key that cannot sign. Witness
  `C96_pss_unusable`. Public keys with such a salt give verifiers that refuse everything (`C97_pss_refuses`).
* C97: nothing checks that the public part of an ECDSA or Ed25519 key is that of its private part; signatures of such
  a key are refused with its own public key. Witness `C97_parts_mixed`.
* C100: key formats are not checked for the data encryption of ECIES, nor for whether the KEM of HPKE is supported: keys
  are made that give no primitive. Witnesses in `C100_unusable`.
* C101: hash function, point format, sizes of the data encryption and AEAD are only checked when something is
  encrypted or decrypted: keys with wrong ones give primitives that refuse everything (`C101_refuses`,
  `C101_unusable`). Nothing checks that the parts of a key belong together (`C101_parts_mixed`).
  `ecies_aead_hkdf_dem_helper.cc:98-99` adds the sizes of two keys with 32 bits, so that `substr` in line 161 may throw
  (`C101_overflow`). `ecies_hkdf_sender_kem_boringssl.cc:202` uses the shared secret without checking whether there is
  one, which for an X25519 public key of low order ends the process (`C101_abort`).
* C105: with their default names, the fake `PublicKeyVerify` rejects every signature of the fake `PublicKeySign`
  (`C105_default_names_differ`). A fake AEAD may decrypt its own ciphertext to another text (`C105_wrong_text`). It raises
  `UnicodeDecodeError` for a refused ciphertext that is not UTF-8 (`C105_decrypt_error`), which ends the search over the
  keys of a keyset (`C105_search_ended`). A fake PRF accepts negative lengths (`C105_prf_negative`).
* C106: the docstrings of the KMS clients promise `ValueError` for a bad credentials file. The exceptions of
  `configparser` and of the Google library are passed on as they are (`C106_aws_errors`, `C106_gcp_errors`).
* C107: `SlowReadableRawBytes.readinto` takes five bytes however short its argument is, so that `read(2)` may return five
  bytes, or, with newer versions of Python, raise `ValueError` and lose them (`C107_raw_too_many`).
* C108: `encrypted_keyset_cli.py:79` opens the keyset file before the server is asked to encrypt the keyset, so that a
  refusal leaves an existing keyset file, perhaps the only copy, empty (`C108_generate_loses`). The associated data is a `str`
  (`:81`, `:100`) where `bytes` is required: with a Google library that refuses it every attempt to generate a keyset fails,
  and empties the file (`C108_str_refused`).
* C59: a failed `add_new_key` leaves a blank key; the primary can be disabled or deleted. Witnesses
  `C59_blank_key_left`, `C59_primary_can_be_lost`.
* C31: an encrypted DEK of 2^32 bytes or more makes `encrypt` raise `struct.error`. Witness
  `C31_long_dek`.
* C37: `$` in the GCP key name pattern accepts a trailing newline (`C37_gcp_newline_accepted`); an
  unbound GCP client supports URIs that `get_aead` then refuses (`C37_gcp_supported_but_refused`);
  a Vault path with a lone surrogate raises `UnicodeEncodeError` (`C37_vault_surrogates`).
* C49: an integer with more digits than the interpreter converts (`sys.get_int_max_str_digits`, Python
  3.11 on) makes `json_loads` raise `ValueError` (`C49_total_violated`).
* C50: strings in arrays of arrays, and strings outside of objects, are not checked
  (`C50_nested_violated`).
* C53: if the source raises in the middle of a `read()`, the bytes already delivered are lost until the
  next rewind (`C53_readall_exception_loses_bytes`).
* C54: a key whose decrypting stream cannot be opened ends the search (`C54_open_failure_hides_key`);
  an I/O error of the source while the right key is tried makes the stream give up that key
  (`C54_io_error_hides_key`).
* C55: an exception of the Python object whose text contains `EOFError` is taken for the end of the
  file, so the data is truncated without an error (`C55_error_taken_for_end`).
* C56: retrying a `Close` that failed midway writes bytes twice (`C56_close_retried_duplicates`);
  `Close` hangs when the Python object accepts nothing (`C56_close_hangs`); one write of 2 to 4 GiB is
  undefined behaviour (`C56_write_2GiB_undefined`).
* C72: if the destination raises while it is written to, it is never closed
  (`C72_destination_left_open`).
* C57: `read(0)` does not return while there is plaintext left, although the documentation of `read`
  allows for a size of 0 (`C57_read_zero_hangs`).
* C68: bytes appended to a ciphertext whose last segment is full are not noticed, since the stream does
  not look for the end of the file after a full last segment (`C68_appended_bytes_accepted`,
  `C68_appended_bytes_witness`). So a ciphertext can be altered and still be accepted, with the right
  plaintext.
* C70: an AES-GCM-HKDF template with `ciphertext_segment_size` of 2^31 or more yields a keyset, but
  `primitive` raises `TinkError`, as the `uint32` becomes a negative `int`
  (`C70_gcm_large_segment`, `C70_gcm_large_segment_witness`); so does a key of 2 GiB
  (`C70_gcm_large_key`, `C70_ctr_large_key`).
* C61: key data that does not parse raises `DecodeError`, which is not a `TinkError`, from the KMS key
  managers (`C61_malformed_key_data`).
* C76: a verified token may have an `iat` of NaN, so that `issued_at()` raises `ValueError`
  (`C76_issued_at_violated`), and, if the validator ignores it, a type header that is not a text
  (`C76_type_header_violated`).
* C77: a type header that is a list or dict is not copied by `type_header()` (`C77_header_violated`).
* C78: `from_keyset` and `from_proto_keyset` keep the message of the caller, `to_proto_keyset` returns that of
  the handle; changing it changes the handle, without validation (`C78_from_keyset_violated`,
  `C78_to_proto_violated`).
* C40: the test `key_id > 2**32` lets `2**32` through to `struct.error` (`C40_out_of_range`).
* C83: `__exit__` and `__del__` of `io.IOBase` call `close()`, which completes the message
  (`_encrypting_stream.py:99-105`): a `with` block left by an exception leaves a valid ciphertext of the first
  bytes (`C83_with_exception`, `C83_with_exception_witness`). There is no way to abandon an encrypting stream
  short of keeping a reference until the process ends.
* C84: `hybrid_cli.py:72-74,85-87` and `gcs_envelope_aead_cli.py:90-91` open the output file before they encrypt
  or decrypt, so a failure leaves an existing file empty (`C84_hybrid_empties`, `C84_gcs_empties`).
* C87: `streaming_aead_cli.py:84-86` encrypts in a `with` block, so that a failing read completes the message (see C83):
  the program exits with 1, but leaves a valid ciphertext of the blocks read before (`C87_input_fails`). Lines 146-147
  open the output file before the input is read: encrypting a file onto itself exits with 0 and leaves an encryption
  of nothing (`C87_same_file`).
* C88: `fake_kms.py:49` lets `binascii.Error` escape for a malformed key, and key managers and walkthrough pass on
  what a client raises, so that not all errors are `TinkError` (`C88_not_only_tink_errors`). `get_aead` of a client
  made for one URI serves any other, too.
* C89: HMAC keys of 2 GiB and more are made and validated, but `SerializeAsString` of them is empty, so that the new key
  data give no primitive (`C89_hmac_large_key`, `C89_hmac_prf_large_key`; see C65).
* C93: `prf_set_util.cc:43-52` passes the output length, a `size_t`, as an `int`: from 2 GiB on HKDF returns an empty
  output, or one of the length modulo 2^32, instead of an error (`C93_hkdf_length`, `C93_hkdf_too_long`).
* C85: import makes the kid of a key with prefix a custom kid, which is checked only if the token has a kid
  (`_jwt_format.py:185-191`), so that tokens without kid become acceptable (`C85_kid_not_demanded`), and those of a
  key with prefix and custom kid (`C85_two_kids`).
* C45: a `NaN` time claim makes `validate` raise `ValueError` (`C45_nan_violated`); `OverflowError` at
  the ends of the calendar (`C45_overflow_violated`); `fixed_now - clock_skew` is arithmetic on the time
  shown, so that in a zone with clock changes it can be off by an hour (`C45_zone_violated`). With that
  an expired token can become valid again (`C46_zone_violated`).
* C48: a raw JWT can be created with an unpaired surrogate, but its payload cannot be read back
  (`C48_surrogate_violated`).
* C43: `validate_header` compares `alg.upper()`, so `hs256` is accepted, and `Hſ256` where `str.upper`
  makes `S` of the long s (`C43_alg_case_violated`, `C43_alg_unicode_violated`).
* C44: a header that is not an object, or an `alg` that is not a string, raises `AttributeError` and
  ends the search over the keys (`C44_other_exceptions_escape`); only tokens with a right signature
  get that far.
* C51: a keyset without enabled keys is exported as `{"keys":[]}`, which the import refuses
  (`C51_no_enabled_key`). The `version` of an exported key is not kept.
* C52: a private JWK with a member of the wrong JSON type raises `TypeError`, `KeyError` or
  `AttributeError` instead of `TinkError` (`C52_type_error_escapes`). `oth` is not among the members
  that make an RSA key private.
* C28, C63: where `json_format.Parse` converts only `ValueError` and the like, a JSON text that is a
  number raises `TypeError`, an infinite enum `OverflowError`, a deeply nested text `RecursionError`,
  and JSON parsing does so whatever the token (`C63_other_exceptions_escape`,
  `C28_json_type_error_escapes`).

* C65: `register()` and `from_cc_registry` are not decorated with `use_tink_errors`, so a key type that
  C++ lacks raises `PythonTinkException` (`C65_unknown_type_exception`).
* C65: `SerializeAsString` returns the empty string for messages of 2 GiB or more, so that key data of that
  size made by C++ come back empty (`C65_oversize_result_lost`).
* C110: the docstring of `_patch_workspace` (`setup.py:123-126`) says that `TINK_PYTHON_SETUPTOOLS_OVERRIDE_BASE_PATH` takes
  precedence and gives the local rules another path. The code never reads it (`C110_override_ignored`). Witness
  `C110_override_violated`. The statement of C110 says what the code does.
* C111: `from_public_keyset_handle` does not look at the version of a key, and `to_public_keyset_handle` makes keys of version
  0, so that a key of an unknown version, which the C++ key managers refuse, is accepted after export and import. Witness
  `C111_version_violated`. The statement of C111 lists it.
* C112, and C15 to C17 if threads register at the same time: the registry tests and then writes without a lock. Two managers
  or wrappers of different types can both be registered (`C112_replaced_violated`, `C112_wrapper_replaced_violated`); new keys
  become allowed after they were forbidden (`C112_permission_violated`); a lookup during `reset()` raises `KeyError`
  (`C112_key_error_violated`). The statement of C112 lists them; C15 to C17 are for calls one after another.
* C113: `kms_client_from_uri` keeps its index when another thread empties and fills the list, so that it can return a client
  that was never the first that supports the URI. Witness `C113_reset_violated`. (`reset_kms_clients` is meant for tests.)

Not violations, but worth knowing: a JSON status may be `true` or `1.0` (`C63_enabled_spellings`); the
two spellings of a field are not taken for a repeated key, and the later one counts
(`C63_two_spellings`); `BinaryKeysetWriter` ignores what `stream.write` returns; it leaves out the
keyset info of an encrypted keyset, the JSON writer does not.

Of `setup.py`: `_patch_workspace` empties the workspace before it encodes the new text, so a version that is not UTF-8 loses
it (`C110_lost`), and the next run does not notice (`C110_lost_unnoticed`); a workspace whose first line begins the local rule
gets the new line in the middle of the rule (example in `Props/SetupExamples`); white space before `#` makes a requirement of
a comment.

Of the example programs: `cleartext_keyset_cli.py:56` opens the keyset file before it serializes the keyset; an
output path that is the keyset path destroys the keyset; `signature_cli.py:96-97` catches
`binascii.Error` around the verification, which does not raise it, and would then exit with status 0.

Corrections of statements: C51 first omitted that there is an enabled key, C52 the types of members. C41 first omitted valid Unicode, keys tried before, and TINK keys with a
custom kid; C44 first omitted malformed tokens. C46 to C48 first omitted the exceptions now in their English. C37
first gave only the scheme prefix for unbound AWS clients; the code requires the region too. C20 first said "has a key"; the code, and the theorem, require a key that
is not DESTROYED.
