{"id": "C01", "title": "AEAD keyset round trip", "statement": "Encrypting with an Aead obtained from a keyset and decrypting with an Aead obtained from any keyset that still contains that key (enabled) under the same associated data returns the plaintext, provided the per-key AEAD inverts itself, produces at least one byte, and every key tried before it rejects with TinkError.", "quantifier": "all keysets, all positions of the key, all plaintexts and associated data, all other keys present", "why_tests_cant": "Depends on the order in which every other key is tried for every keyset shape; tests try a few two-key keysets.", "anchors": ["python/tink/aead/_aead_wrapper.py:_WrappedAead.encrypt", "python/tink/aead/_aead_wrapper.py:_WrappedAead.decrypt", "python/tink/core/_primitive_set.py:PrimitiveSet"]}
{"id": "C02", "title": "AEAD decryption is authentic to the keyset", "statement": "If decrypt of a keyset AEAD returns a plaintext then some key of the keyset itself decrypted it: either a key whose 5-byte output prefix starts the ciphertext decrypted the rest, or a RAW key decrypted the whole ciphertext, always under the caller's associated data.", "quantifier": "all keysets, all byte strings as ciphertext and associated data, all key behaviours", "why_tests_cant": "Quantifies over all forged ciphertexts.", "anchors": ["python/tink/aead/_aead_wrapper.py:_WrappedAead.decrypt"]}
{"id": "C03", "title": "AEAD decryption fails only as TinkError when all keys reject", "statement": "decrypt of a keyset AEAD raises TinkError exactly when every candidate key (prefix matches on the remainder, when the ciphertext is longer than 5 bytes, then every RAW key on the whole) raises TinkError; the first candidate that does anything else determines the result.", "quantifier": "all keysets, ciphertexts, associated data and key behaviours including keys that raise other exceptions", "why_tests_cant": "The claim is an equivalence over all candidate lists, including non-TinkError failures.", "anchors": ["python/tink/aead/_aead_wrapper.py:_WrappedAead.decrypt"]}
{"id": "C04", "title": "A short ciphertext of a prefixed key cannot be decrypted", "statement": "A ciphertext of at most 5 bytes is never given to a prefixed key; hence a prefixed key whose own ciphertext is empty cannot be read back (the general round trip without the non-empty condition is false).", "quantifier": "all ciphertexts of length at most 5; one concrete violating keyset", "why_tests_cant": "Boundary condition of the length test for every keyset.", "anchors": ["python/tink/aead/_aead_wrapper.py:_WrappedAead.decrypt"]}
{"id": "C05", "title": "Deterministic AEAD keyset round trip and determinism", "statement": "encrypt_deterministically is a function of keyset, plaintext and associated data when the primary key's is; decrypt_deterministically inverts it under the same conditions as AEAD and accepts only what some key of the keyset accepts.", "quantifier": "all keysets, plaintexts, associated data", "why_tests_cant": "Same as AEAD: quantifies over every keyset shape and candidate order.", "anchors": ["python/tink/daead/_deterministic_aead_wrapper.py:_WrappedDeterministicAead"]}
{"id": "C06", "title": "Hybrid encryption round trip across public and private keysets", "statement": "A ciphertext made with the public keyset's primary is decrypted by any private keyset containing the matching private key under the same id and prefix type, with the same context info; decryption accepts only what some private key accepts.", "quantifier": "all pairs of public and private keysets, plaintexts, context infos", "why_tests_cant": "Involves two keysets with arbitrary other keys.", "anchors": ["python/tink/hybrid/_hybrid_wrapper.py:_WrappedHybridDecrypt", "python/tink/hybrid/_hybrid_wrapper.py:_WrappedHybridEncrypt"]}
{"id": "C07", "title": "MAC compute then verify", "statement": "A tag computed with a keyset verifies with every keyset that still contains the key, for all four prefix types (LEGACY keys authenticate data plus one zero byte), provided the per-key tag is non-empty when the key is prefixed and is longer than 5 bytes when it is RAW, and keys tried before it reject with TinkError.", "quantifier": "all keysets, data, key positions", "why_tests_cant": "Every keyset shape and every prefix type combination.", "anchors": ["python/tink/mac/_mac_wrapper.py:_WrappedMac"]}
{"id": "C08", "title": "MAC and signature verification is authentic to the keyset", "statement": "verify_mac / verify return only if some key of the keyset verified: a key whose prefix starts the tag verified the remaining bytes (over data, plus a zero byte for LEGACY), or a RAW key verified the whole tag over data. Tags of at most 5 bytes are always rejected with TinkError.", "quantifier": "all tags, data and keysets", "why_tests_cant": "Quantifies over all forgeries.", "anchors": ["python/tink/mac/_mac_wrapper.py:_WrappedMac.verify_mac", "python/tink/signature/_signature_wrapper.py:_WrappedPublicKeyVerify.verify"]}
{"id": "C09", "title": "Signature sign then verify", "statement": "A signature made with a private keyset's primary verifies with every public keyset containing the matching public key with the same id and prefix type, under the analogous conditions to MAC.", "quantifier": "all pairs of private and public keysets, data", "why_tests_cant": "Two keysets with arbitrary other keys.", "anchors": ["python/tink/signature/_signature_wrapper.py"]}
{"id": "C10", "title": "PRF set exposes every key exactly by id", "statement": "A PRF set built from a keyset whose keys are all RAW maps each key id to the PRF of that key and primary_id/primary().compute use the primary key; a keyset with any non-RAW key is rejected with TinkError.", "quantifier": "all keysets", "why_tests_cant": "All keysets, including duplicated ids.", "anchors": ["python/tink/prf/_prf_set_wrapper.py:_WrappedPrfSet"]}
{"id": "C11", "title": "Output prefixes determine the key id and prefix class", "statement": "The output prefix of TINK, LEGACY and CRUNCHY keys is exactly 5 bytes, RAW is empty, any other prefix type is rejected with TinkError; two non-RAW keys share a prefix exactly when they have the same id and are both TINK or both LEGACY/CRUNCHY.", "quantifier": "all 32-bit key ids and all prefix type numbers", "why_tests_cant": "2^32 ids times all enum values, pairwise.", "anchors": ["python/tink/core/_crypto_format.py:output_prefix"]}
{"id": "C12", "title": "Key rotation keeps old data readable", "statement": "After any sequence of adding keys to a keyset and changing which key is primary, ciphertexts, tags and signatures made with an earlier primary are still accepted as long as that key remains enabled and the other keys reject them with TinkError.", "quantifier": "all rotation histories, all data", "why_tests_cant": "Unbounded histories of keyset edits.", "anchors": ["python/tink/aead/_aead_wrapper.py", "python/tink/mac/_mac_wrapper.py", "python/tink/signature/_signature_wrapper.py", "python/tink/core/_primitive_set.py"]}
{"id": "C13", "title": "One misbehaving key can hide a good one", "statement": "A key that raises an exception other than TinkError stops the search: the exception reaches the caller even though a later key would have accepted. So 'if some key accepts, decrypt/verify succeeds' is false in general and true when all candidate keys only ever fail with TinkError.", "quantifier": "all keysets and inputs; one concrete violating keyset", "why_tests_cant": "Needs an adversarial primitive and all orders.", "anchors": ["python/tink/aead/_aead_wrapper.py", "python/tink/mac/_mac_wrapper.py", "python/tink/signature/_signature_wrapper.py", "python/tink/hybrid/_hybrid_wrapper.py", "python/tink/daead/_deterministic_aead_wrapper.py"]}
{"id": "C14", "title": "Primitive set is a faithful index of what was added", "statement": "After any sequence of add operations, looking up an identifier returns exactly the entries added with that identifier in order of addition, all() contains every entry once, and raw_primitives() is the lookup of the empty identifier.", "quantifier": "all sequences of additions (successful and failing)", "why_tests_cant": "Unbounded histories.", "anchors": ["python/tink/core/_primitive_set.py:PrimitiveSet"]}
{"id": "C15", "title": "A key type stays bound to its first key manager", "statement": "Once a key manager is registered for a type URL, every later lookup for that type URL returns that same manager until reset, whatever other registrations are attempted.", "quantifier": "all histories of registry operations", "why_tests_cant": "Unbounded histories including failing registrations.", "anchors": ["python/tink/core/_registry.py:Registry.register_key_manager", "python/tink/core/_registry.py:Registry.key_manager"]}
{"id": "C16", "title": "Forbidding new keys is permanent", "statement": "Once a type URL is registered with new keys disallowed, new_key_data for it raises TinkError until reset; registration can turn the permission off but never on again.", "quantifier": "all histories of registry operations", "why_tests_cant": "Unbounded histories.", "anchors": ["python/tink/core/_registry.py:Registry.register_key_manager", "python/tink/core/_registry.py:Registry.new_key_data"]}
{"id": "C17", "title": "Registry operations that fail change nothing", "statement": "Any registry registration that raises leaves every later lookup, primitive, key generation and wrap result unchanged.", "quantifier": "all registry states and arguments", "why_tests_cant": "All states and all failing arguments.", "anchors": ["python/tink/core/_registry.py:Registry"]}
{"id": "C18", "title": "Primitives and wrappers are type-checked", "statement": "primitive() succeeds only through a manager registered for the key's type URL whose primitive class is the requested class; public_key_data succeeds only for private key material with a private key manager registered for that type URL.", "quantifier": "all registry states, key data and requested classes", "why_tests_cant": "All registry contents.", "anchors": ["python/tink/core/_registry.py:Registry.primitive", "python/tink/core/_registry.py:Registry.public_key_data", "python/tink/core/_registry.py:Registry.wrap", "python/tink/core/_registry.py:Registry.register_primitive_wrapper"]}
{"id": "C19", "title": "Generated keysets are valid", "statement": "generate_new returns a keyset with exactly one key, ENABLED, whose id is the primary id and lies in 1..2^31-1, with the template's prefix type and the registry's key data; the keyset passes validation whenever the prefix type is known.", "quantifier": "all templates, registries and random choices", "why_tests_cant": "All random outcomes and templates.", "anchors": ["python/tink/_keyset_handle.py:KeysetHandle.generate_new", "python/tink/_keyset_handle.py:_generate_unused_key_id"]}
{"id": "C20", "title": "Keyset validation accepts exactly the documented keysets", "statement": "A keyset is accepted when obtaining a primitive iff it has a key that is not destroyed, every non-destroyed key has key data, a known prefix type and a known status, at most one enabled key carries the primary id, and such a key exists unless all key material is public.", "quantifier": "all keysets", "why_tests_cant": "Equivalence over all keysets; error order matters.", "anchors": ["python/tink/_keyset_handle.py:_validate_keyset", "python/tink/_keyset_handle.py:_validate_key"]}
{"id": "C21", "title": "Only enabled keys are used", "statement": "The primitive obtained from a handle is built from exactly the enabled keys in keyset order, its primary is the enabled key carrying the primary id, and the result does not depend on the key data of disabled or destroyed keys.", "quantifier": "all keysets, registries and primitive classes", "why_tests_cant": "Non-interference over all contents of disabled keys.", "anchors": ["python/tink/_keyset_handle.py:KeysetHandle.primitive"]}
{"id": "C22", "title": "No secret key material leaves through the no-secret paths", "statement": "write_no_secret, serialize_without_secret, read_no_secret and parse_without_secret succeed only for keysets all of whose keys are neither UNKNOWN_KEYMATERIAL, SYMMETRIC nor ASYMMETRIC_PRIVATE, and then the keyset read or written is exactly the one given.", "quantifier": "all keysets and readers/writers", "why_tests_cant": "All keysets, including with unrecognised enum values.", "anchors": ["python/tink/_keyset_handle.py:KeysetHandle.write_no_secret", "python/tink/_keyset_handle.py:KeysetHandle.read_no_secret", "python/tink/_keyset_handle.py:_assert_no_secret_key_material", "python/tink/_proto_keyset_format.py", "python/tink/_json_proto_keyset_format.py"]}
{"id": "C23", "title": "keyset_info reveals no key material", "statement": "keyset_info depends only on the primary id and each key's type URL, status, id and prefix type: changing the key bytes never changes it, and it lists every key in order. The unencrypted part of an encrypted keyset is this info only.", "quantifier": "all pairs of keysets that agree on metadata", "why_tests_cant": "Non-interference: quantifies over pairs of keysets.", "anchors": ["python/tink/_keyset_handle.py:keyset_info", "python/tink/_keyset_handle.py:_encrypt"]}
{"id": "C24", "title": "Encrypted keyset write/read round trip", "statement": "Writing a handle to a valid keyset encrypted under a master AEAD and associated data and reading it back with an AEAD that decrypts what was written under the same associated data yields a handle to an identical keyset, provided the ciphertext is not empty (an empty ciphertext is written but refused on reading).", "quantifier": "all keysets, associated data, master AEADs; binary and JSON readers and writers", "why_tests_cant": "All keysets through encryption and wire formats.", "anchors": ["python/tink/_keyset_handle.py:KeysetHandle.write_with_associated_data", "python/tink/_keyset_handle.py:KeysetHandle.read_with_associated_data", "python/tink/_keyset_reader.py", "python/tink/_keyset_writer.py"]}
{"id": "C25", "title": "A successful encrypted write is readable", "statement": "If writing a keyset encrypted succeeds then the master AEAD was observed to decrypt the written bytes to exactly the given keyset, for any AEAD whatsoever, even a faulty one; a write whose check fails raises TinkError and writes nothing.", "quantifier": "all keysets, all (possibly faulty) master AEADs", "why_tests_cant": "Quantifies over faulty AEADs.", "anchors": ["python/tink/_keyset_handle.py:_encrypt"]}
{"id": "C26", "title": "Reading with the wrong associated data fails", "statement": "If the master AEAD rejects the stored bytes under the given associated data, reading raises and returns no handle; an encrypted keyset without ciphertext or a decrypted keyset without keys is rejected with TinkError.", "quantifier": "all encrypted keysets, associated data, AEADs", "why_tests_cant": "All corrupted inputs.", "anchors": ["python/tink/_keyset_handle.py:_decrypt", "python/tink/_keyset_handle.py:_assert_enough_encrypted_key_material", "python/tink/_keyset_handle.py:_assert_enough_key_material"]}
{"id": "C27", "title": "Public keyset handle mirrors the private one", "statement": "public_keyset_handle succeeds only if every key is private with a registered private key manager; then it has the same primary id and, key by key in order, the same id, status and prefix type, with key data from the manager; if managers return public key data the result passes the no-secret check.", "quantifier": "all keysets and registries", "why_tests_cant": "All keysets, by induction over keys.", "anchors": ["python/tink/_keyset_handle.py:KeysetHandle.public_keyset_handle", "python/tink/core/_registry.py:Registry.public_key_data"]}
{"id": "C28", "title": "Secret access requires the token", "statement": "parse and serialize of cleartext secret keysets (binary and JSON), and conversion between handles and protos, raise TinkError for any token that is not a SecretKeyAccess, whatever the bytes or keyset. (JSON parsing reads the text before it looks at the token, so with versions of protobuf's json_format that let other exceptions through, those come first; a handle is never returned.)", "quantifier": "all tokens, keysets and byte strings", "why_tests_cant": "All inputs.", "anchors": ["python/tink/_proto_keyset_format.py", "python/tink/_json_proto_keyset_format.py", "python/tink/_insecure_keyset_handle.py", "python/tink/_secret_key_access.py"]}
{"id": "C29", "title": "Binary keyset format round trip", "statement": "Parsing the serialization of any keyset or encrypted keyset returns it unchanged (all ids, statuses, prefix types, key bytes, including unknown enum numbers), so serialization is injective.", "quantifier": "all keysets and encrypted keysets", "why_tests_cant": "All message contents; varint boundaries.", "anchors": ["python/tink/_keyset_writer.py:BinaryKeysetWriter", "python/tink/_keyset_reader.py:BinaryKeysetReader", "python/tink/_proto_keyset_format.py", "python/tink/proto/tink.proto"]}
{"id": "C30", "title": "Binary keyset parsing never misbehaves", "statement": "For every byte string, binary parsing returns a keyset or raises TinkError; empty input raises TinkError.", "quantifier": "all byte strings", "why_tests_cant": "All malformed inputs.", "anchors": ["python/tink/_keyset_reader.py:BinaryKeysetReader"]}
{"id": "C31", "title": "Envelope encryption round trip", "statement": "Decrypting an envelope ciphertext with the same remote AEAD and DEK template returns the plaintext for the same associated data, provided the remote AEAD and DEK AEAD invert themselves, key generation yields a symmetric key of the template's type, and the encrypted DEK is shorter than 2^32 bytes; a longer encrypted DEK makes encryption raise.", "quantifier": "all plaintexts, associated data, generated DEKs, remote AEADs", "why_tests_cant": "All DEKs and lengths.", "anchors": ["python/tink/aead/_kms_envelope_aead.py:KmsEnvelopeAead"]}
{"id": "C32", "title": "Envelope ciphertext framing", "statement": "An envelope ciphertext is a 4-byte big-endian length, the encrypted DEK of that length and the payload; decryption of any byte string either splits it in exactly this way or raises TinkError without calling the remote AEAD.", "quantifier": "all byte strings", "why_tests_cant": "All malformed ciphertexts.", "anchors": ["python/tink/aead/_kms_envelope_aead.py:KmsEnvelopeAead.decrypt"]}
{"id": "C33", "title": "The KMS never sees payload, plaintext or associated data", "statement": "The remote AEAD is called only with the serialized DEK (encrypt) or the embedded encrypted DEK (decrypt) and with empty associated data; a fresh DEK is requested for each encryption.", "quantifier": "all inputs", "why_tests_cant": "Information-flow over all inputs.", "anchors": ["python/tink/aead/_kms_envelope_aead.py:KmsEnvelopeAead"]}
{"id": "C34", "title": "Envelope AEAD accepts only supported DEK types", "statement": "Constructing an envelope AEAD raises TinkError unless the DEK template is one of the five supported AEAD key types and the registry can generate such a key.", "quantifier": "all templates", "why_tests_cant": "All type URLs.", "anchors": ["python/tink/aead/_kms_envelope_aead.py:is_supported_dek_key_type", "python/tink/aead/_kms_envelope_aead.py:KmsEnvelopeAead.__init__"]}
{"id": "C35", "title": "KMS client selection is first registered, first served", "statement": "After any history of registrations and clears, kms_client_from_uri returns the earliest client registered since the last clear that supports the URI, and raises TinkError iff there is none.", "quantifier": "all histories, URIs and clients", "why_tests_cant": "Unbounded histories.", "anchors": ["python/tink/_kms_clients.py"]}
{"id": "C36", "title": "AWS encryption context binds associated data", "statement": "Distinct associated data always yield distinct AWS encryption contexts, and the context is empty exactly for empty associated data.", "quantifier": "all pairs of byte strings", "why_tests_cant": "Injectivity over all pairs.", "anchors": ["python/tink/integration/awskms/_aws_kms_client.py:_encryption_context"]}
{"id": "C37", "title": "KMS clients only serve their own keys", "statement": "An AWS or GCP client bound to a key URI supports exactly that URI; an unbound GCP client supports exactly the URIs that start with gcp-kms://, an unbound AWS client those that start with aws-kms://arn:aws:kms:<region>:. get_aead raises TinkError for any URI the client does not accept, and otherwise every call addresses exactly the key named in the URI, in the region named there. A Vault key path is accepted exactly when, after an optional leading slash, it has the form mount/keys/name, is split uniquely, and mount and name are sent percent-encoded, so that different names stay different. Violations: a GCP key name followed by a newline is accepted; a GCP client supports URIs for which get_aead then raises; a Vault key path containing a lone surrogate makes the constructor raise a non-Tink exception.", "quantifier": "all URIs and bindings", "why_tests_cant": "All strings.", "anchors": ["python/tink/integration/awskms/_aws_kms_client.py", "python/tink/integration/gcpkms/_gcp_kms_client.py", "python/tink/integration/hcvault/_hcvault_kms_aead.py"]}
{"id": "C38", "title": "Vault AEAD never silently ignores associated data", "statement": "A Vault AEAD rejects non-empty associated data with TinkError on encryption and decryption without contacting the server, and every failure of the server surfaces as TinkError.", "quantifier": "all inputs and server behaviours", "why_tests_cant": "All server behaviours.", "anchors": ["python/tink/integration/hcvault/_hcvault_kms_aead.py"]}
{"id": "C39", "title": "Base64url codec", "statement": "Decoding the base64url encoding of any bytes returns them; encodings use only A-Z a-z 0-9 - _ without padding; decoding rejects every string containing any other character or of length 1 mod 4 with JwtInvalidError. Distinct strings can decode to the same bytes (non-canonical trailing bits are accepted).", "quantifier": "all byte strings and all strings", "why_tests_cant": "All inputs; non-canonical inputs.", "anchors": ["python/tink/jwt/_jwt_format.py:_base64_encode", "python/tink/jwt/_jwt_format.py:_base64_decode"]}
{"id": "C40", "title": "Key ids in JWT headers", "statement": "get_kid of a TINK key is 6 base64url characters that determine the 32-bit key id; RAW keys have none; other prefix types are rejected with JwtInvalidError.", "quantifier": "all 32-bit ids and prefix types", "why_tests_cant": "2^32 ids.", "anchors": ["python/tink/jwt/_jwt_format.py:get_kid"]}
{"id": "C41", "title": "JWT sign/verify round trip", "statement": "For every raw JWT created from valid Unicode strings, encoding it with a JWT keyset (MAC or signature) and verifying with a keyset that has the corresponding key and a validator that accepts it returns a verified JWT with the same type header and payload (an empty type header becomes absent), if the keys tried before refuse, or if checks by C++ raise only TinkError. Encoding succeeds if the payload can be written as JSON, except that a TINK key with a custom kid always raises JwtInvalidError.", "quantifier": "all raw JWTs, keys, kids, validators", "why_tests_cant": "All payloads incl. nested JSON and all Unicode.", "anchors": ["python/tink/jwt/_jwt_hmac_key_manager.py:_JwtHmac", "python/tink/jwt/_jwt_signature_key_manager.py", "python/tink/jwt/_jwt_format.py", "python/tink/jwt/_raw_jwt.py"]}
{"id": "C42", "title": "An accepted JWT is authentic", "statement": "If verification returns a token, the compact string has exactly the form header.payload.signature, the key verified the signature over the exact ASCII bytes before the last dot, and the returned claims are exactly the decoded payload.", "quantifier": "all compact strings, keys, validators", "why_tests_cant": "All forgeries.", "anchors": ["python/tink/jwt/_jwt_hmac_key_manager.py:_JwtHmac.verify_mac_and_decode_with_kid", "python/tink/jwt/_jwt_signature_key_manager.py:_JwtPublicKeyVerify", "python/tink/jwt/_jwt_format.py:split_signed_compact"]}
{"id": "C43", "title": "No algorithm confusion", "statement": "An accepted token's header is a JSON object with an alg that equals the key's algorithm up to letter case, has no crit entry, and matches the expected kid: a TINK key requires its own kid, a custom kid must match when the token has one. Exact (case-sensitive) equality of alg is false of the code.", "quantifier": "all headers and keys", "why_tests_cant": "All JSON headers.", "anchors": ["python/tink/jwt/_jwt_format.py:validate_header"]}
{"id": "C44", "title": "JWT keyset verification tries every key", "statement": "verify over a keyset accepts iff, for keys that fail only with TinkError, some key accepts; it returns the result of the first accepting key. If all keys refuse, the error is JwtInvalidError if that is the error of some key, which means that the token is malformed or that some key authenticated it but rejected it; otherwise it is another TinkError. Keysets with keys other than TINK or RAW give no primitive.", "quantifier": "all keysets and tokens", "why_tests_cant": "All keysets.", "anchors": ["python/tink/jwt/_jwt_mac_wrapper.py:_WrappedJwtMac", "python/tink/jwt/_jwt_signature_wrappers.py:_WrappedJwtPublicKeyVerify"]}
{"id": "C45", "title": "Validator decision", "statement": "validate accepts a token exactly when: the expiration is after now minus skew (and present unless allow_missing_expiration), not-before is at most now plus skew, issued-at is at most now plus skew when expected to be in the past, and type header, issuer and audience each match the expectation, are ignored, or are absent on both sides; otherwise it raises JwtInvalidError. Three exceptions exist: a NaN time claim raises ValueError, now plus or minus skew outside the years 1 to 9999 raises OverflowError, and for a fixed_now in a zone with clock changes the skew is applied to the time shown.", "quantifier": "all tokens, validators and times", "why_tests_cant": "All combinations of optional fields and times.", "anchors": ["python/tink/jwt/_jwt_validator.py:validate"]}
{"id": "C46", "title": "Expired stays expired", "statement": "If at some time a token is rejected because it expired, it is rejected at every later time with the same validator settings; once accepted, a token is accepted until it expires, so the times at which it is accepted have no gaps. This fails for a fixed_now in a zone with clock changes.", "quantifier": "all tokens and pairs of times", "why_tests_cant": "Pairs of times.", "anchors": ["python/tink/jwt/_jwt_validator.py:_validate_timestamps"]}
{"id": "C47", "title": "Raw JWT construction rules", "statement": "new_raw_jwt fails unless an expiration is given or without_expiration is set, but not both; custom claims can never set a registered claim; timestamps outside 0..253402300799 are rejected; a created token's getters return what was given, except that an empty issuer or subject counts as not given and that times are stored in whole seconds.", "quantifier": "all arguments", "why_tests_cant": "All argument combinations.", "anchors": ["python/tink/jwt/_raw_jwt.py:RawJwt.create", "python/tink/jwt/_raw_jwt.py:_validate_custom_claim_name"]}
{"id": "C48", "title": "JWT payload JSON round trip", "statement": "from_json of a token's json_payload with its type header gives an equal token, for tokens read from JSON and for created tokens whose strings are valid Unicode. A created token with an unpaired surrogate is written but cannot be read back.", "quantifier": "all raw JWTs", "why_tests_cant": "All nested JSON values.", "anchors": ["python/tink/jwt/_raw_jwt.py:RawJwt.from_json", "python/tink/jwt/_raw_jwt.py:RawJwt.json_payload", "python/tink/jwt/_json_util.py"]}
{"id": "C49", "title": "JSON parsing has no duplicate-key ambiguity", "statement": "json_loads rejects with JwtInvalidError every text in which some object, at any depth, repeats a key, and accepts what json_dumps produced from a value whose strings are valid Unicode, returning the same value. A text is rejected with nothing but JwtInvalidError, except that an integer with more digits than the interpreter converts raises ValueError (violation).", "quantifier": "all JSON values, all strings", "why_tests_cant": "All depths.", "anchors": ["python/tink/jwt/_json_util.py:json_loads", "python/tink/jwt/_json_util.py:json_dumps"]}
{"id": "C50", "title": "Strings in parsed JSON are valid Unicode", "statement": "Object keys, strings that are values of objects and strings in arrays that are values of objects, anywhere in a parsed JSON value, never contain surrogates; a text that has one there is rejected with JwtInvalidError. Strings in arrays of arrays, and strings outside of objects, can (violation).", "quantifier": "all texts; one concrete violating text", "why_tests_cant": "All depths.", "anchors": ["python/tink/jwt/_json_util.py"]}
{"id": "C51", "title": "JWK set export/import round trip", "statement": "A keyset without secrets whose enabled keys are supported public keys with prefix type RAW or TINK (below 2 GiB) can be exported as a JWK set. If it has an enabled key, importing that JWK set gives a keyset with, in order, the enabled keys: same algorithm and key numbers, the kid (that of the key id for TINK keys, the custom kid otherwise) as custom kid, RAW prefix, distinct randomly drawn ids; the last one becomes primary.", "quantifier": "all public JWT keysets", "why_tests_cant": "All keysets and numbers.", "anchors": ["python/tink/jwt/_jwk_set_converter.py"]}
{"id": "C52", "title": "JWK import never imports private keys", "statement": "Importing a JWK set that contains an EC key with a private part or an RSA key with any of p,q,dp,dq,d,qi never yields a handle; it raises TinkError if the members of the keys have the JSON types that RFC 7517 and 7518 prescribe. Any successfully imported handle contains only ASYMMETRIC_PUBLIC, enabled, RAW keys, exactly those that the JWKs describe.", "quantifier": "all JWK sets", "why_tests_cant": "All JSON documents.", "anchors": ["python/tink/jwt/_jwk_set_converter.py:to_public_keyset_handle"]}
{"id": "C53", "title": "Rewindable input stream replays exactly", "statement": "For every source (short reads, non-blocking None, EOF) and every history of reads, rewinds and disable_rewind, the bytes returned since the last rewind are a prefix of the source's bytes, and nothing is lost, duplicated or reordered; read() returns exactly the bytes up to the end, or up to where no data is available for the moment. Violation: if the source raises in the middle of a read(), the bytes it had already delivered are lost until the next rewind.", "quantifier": "all sources and operation histories", "why_tests_cant": "Unbounded histories with partial reads.", "anchors": ["python/tink/streaming_aead/_rewindable_input_stream.py:RewindableInputStream"]}
{"id": "C54", "title": "Streaming decryption over a keyset is one key's decryption", "statement": "All bytes returned by a keyset decrypting stream come from a single key's decrypting stream opened at the start of the ciphertext; keys that fail on the first read are skipped; if all fail the read raises TinkError, and after a match no other key is ever tried. This presumes that the keys' streams can be opened and that the source raises nothing: a key whose stream cannot be opened ends the search, and an I/O error of the source makes the right key be given up (violations).", "quantifier": "all keysets, read sequences and sources", "why_tests_cant": "Unbounded read histories.", "anchors": ["python/tink/streaming_aead/_streaming_aead_wrapper.py:_DecryptingStreamWrapper"]}
{"id": "C55", "title": "Python-to-C++ input stream delivers the source bytes", "statement": "Through any history of Next and BackUp calls and any short reads of the Python object, the input stream yields each source byte exactly once in order, Position counts them, and after end or error the status is sticky; the end is reported only at the end of the source. This presumes that no exception of the Python object has a text containing EOFError: such an exception is taken for the end of the file, so the data is silently truncated (violation).", "quantifier": "all sources and call histories", "why_tests_cant": "Unbounded histories.", "anchors": ["python/tink/cc/python_input_stream.cc", "python/tink/cc/input_stream_adapter.cc"]}
{"id": "C56", "title": "Python-to-C++ output stream writes all bytes in order", "statement": "Through any history of Next/BackUp/Close and any partial writes of the Python object, the bytes handed to the Python object followed by those buffered are exactly the bytes the writer committed; after a successful Close the Python object has accepted exactly the committed bytes, and nothing is written any more. Writing to an encrypting stream (less than 2 GiB at once) hands over all the bytes, or raises TinkError and has handed over a prefix. Violations: after a Close that fails midway, retrying Close writes bytes twice; Close hangs if the Python object accepts nothing; a single write of 2 to 4 GiB is undefined behaviour.", "quantifier": "all call histories and partial-write behaviours", "why_tests_cant": "Unbounded histories.", "anchors": ["python/tink/cc/python_output_stream.cc", "python/tink/cc/output_stream_adapter.cc", "python/tink/streaming_aead/_encrypting_stream.py:RawEncryptingStream"]}
{"id": "C57", "title": "Raw decrypting stream read contract", "statement": "read(size) with 0 < size < 2**63 returns the next bytes of the plaintext, at most size of them, and b'' only at its end, else it raises TinkError and no byte is lost; readinto(b) does the same into b; read(), read(-1) and read(None) return all the rest or raise TinkError; all of these return if the C++ stream makes progress; a closed stream raises ValueError. read(0) does not terminate while data is available (violation).", "quantifier": "all sources and sizes", "why_tests_cant": "Non-termination cannot be observed by a test.", "anchors": ["python/tink/streaming_aead/_decrypting_stream.py:RawDecryptingStream"]}
{"id": "C58", "title": "Big integer encoding", "statement": "num_to_bytes of a non-negative integer is its unique minimal big-endian representation (a single zero byte for 0), so it is injective; negative integers raise OverflowError.", "quantifier": "all integers", "why_tests_cant": "All integers.", "anchors": ["python/tink/internal/big_integer_util.py:num_to_bytes"]}
{"id": "C59", "title": "Keyset editing keeps keysets consistent", "statement": "Through any history of keyset builder operations starting from an empty keyset in which key generation does not fail, key ids stay pairwise distinct and in 1..2^32-1, each operation affects only the named key, set_primary only names a present key, and an operation that raises leaves the keyset unchanged. A key added with raw_template(t) or legacy_template(t), for a predefined template t, is an enabled key like those of t, whose outputs have no prefix, or a zero byte and the key id as prefix. A failed add_new_key leaves a blank key behind, and the primary key may be disabled or deleted, which surfaces only when a handle is created (violations).", "quantifier": "all histories of operations and random choices", "why_tests_cant": "Unbounded histories.", "anchors": ["python/tink/testing/keyset_builder.py"]}
{"id": "C60", "title": "Key templates request what their names say", "statement": "Each predefined key template (AEAD, deterministic AEAD, MAC, PRF, streaming AEAD, hybrid, signature, JWT) decodes to the algorithm, key size, other parameters and output prefix type stated in its name; a template built by a template creation function decodes to exactly the parameters given, out-of-range numbers being refused; KMS templates carry the given URI and DEK template unchanged and are RAW.", "quantifier": "all 89 predefined templates; all parameters, URIs and DEK templates", "why_tests_cant": "All parameters, URIs and DEK templates.", "anchors": ["python/tink/jwt/_jwt_key_templates.py", "python/tink/aead/_aead_key_templates.py", "python/tink/daead/_deterministic_aead_key_templates.py", "python/tink/mac/_mac_key_templates.py", "python/tink/prf/_prf_key_templates.py", "python/tink/streaming_aead/_streaming_aead_key_templates.py", "python/tink/hybrid/_hybrid_key_templates.py", "python/tink/signature/_signature_key_templates.py"]}
{"id": "C61", "title": "Keys that refer to a KMS lead to exactly the named key", "statement": "The primitive made from a KMS AEAD key is the AEAD that the first registered client supporting its URI returns for that URI; the primitive made from a KMS envelope key is an envelope AEAD with that AEAD as the remote and the DEK template stored in the key, and is refused for unsupported DEK types. Key data that does not parse raises a protobuf DecodeError rather than a TinkError (violation).", "quantifier": "all key data, client lists and DEK templates", "why_tests_cant": "All key contents and all lists of clients.", "anchors": ["python/tink/aead/_kms_aead_key_manager.py", "python/tink/_kms_clients.py"]}
{"id": "C62", "title": "JSON keyset format round trip", "statement": "Reading the text that the JSON writer wrote for a keyset or an encrypted keyset (with its keyset info) returns it unchanged: all ids, statuses, prefix types, key bytes and type URLs, including unknown enum numbers and absent submessages; so writing is injective. Writing succeeds for every keyset and appends to the stream. A handle serialized to JSON with the token is parsed back to an equal handle.", "quantifier": "all keysets and encrypted keysets", "why_tests_cant": "All message contents; escapes, base64 padding, enum numbers without a name.", "anchors": ["python/tink/_keyset_writer.py:JsonKeysetWriter", "python/tink/_keyset_reader.py:JsonKeysetReader", "python/tink/_json_proto_keyset_format.py"]}
{"id": "C63", "title": "JSON keyset parsing never misbehaves", "statement": "For every text, JSON reading returns a keyset or raises TinkError; parsing then gives a handle on a valid keyset or raises TinkError. Texts that are not JSON, and those that repeat a key in an object at any depth, give no keyset. With versions of json_format that convert only ValueError, TypeError, OverflowError and RecursionError escape (violation).", "quantifier": "all texts", "why_tests_cant": "All malformed inputs.", "anchors": ["python/tink/_keyset_reader.py:JsonKeysetReader", "python/tink/_json_proto_keyset_format.py"]}
{"id": "C64", "title": "Registration makes every key type usable", "statement": "register() of each package and tink_config.register() succeed in any order and any number of times, mixed with the program's own registrations for other types; from then until a reset, every key type of the package has Tink's key manager with new keys allowed, and every class of the package has Tink's wrapper; no other key type appears. Each predefined template of a package names one of its key types, and generate_new with it gives a keyset with one enabled primary key with the key data C++ makes, whose primitive is Tink's wrapper of the C++ primitive.", "quantifier": "all histories of registrations; all packages and their 61 predefined templates", "why_tests_cant": "All orders and repetitions of registrations.", "anchors": ["python/tink/tink_config.py:register", "python/tink/aead/_aead_key_manager.py:register", "python/tink/daead/_deterministic_aead_key_manager.py:register", "python/tink/hybrid/_hybrid_key_manager.py:register", "python/tink/mac/_mac_key_manager.py:register", "python/tink/prf/_prf_key_manager.py:register", "python/tink/signature/_signature_key_manager.py:register", "python/tink/streaming_aead/_streaming_aead_key_manager.py:register"]}
{"id": "C65", "title": "What passes between Python and C++ is unchanged", "statement": "Key data, key templates and arguments reach the C++ key managers and primitives unchanged and in their order, and their results come back unchanged; whatever error status C++ returns, the program sees a TinkError; a template for another key type is refused with TinkError. Messages of 2 GiB or more raise protobuf's EncodeError; but key data of that size that C++ makes come back empty, without an exception (violation). If C++ lacks a key type of a package, register() raises an exception, which need not be a TinkError (violation).", "quantifier": "all key data, templates, arguments and C++ outcomes", "why_tests_cant": "All contents and all behaviours of C++.", "anchors": ["python/tink/cc/cc_key_manager.h", "python/tink/core/_key_manager.py:KeyManagerCcToPyWrapper", "python/tink/core/_key_manager.py:PrivateKeyManagerCcToPyWrapper", "python/tink/core/_tink_error.py:use_tink_errors", "python/tink/aead/_aead_key_manager.py:AeadCcToPyWrapper"]}
{"id": "C66", "title": "From registration to use", "statement": "After registration, and for every predefined template, the primitive of a new keyset works if the C++ primitive of the single key does: AEADs and deterministic AEADs decrypt what they encrypt, MACs accept their tags, the PRF set consists of the key's PRF as its primary, signatures of the private keyset are accepted by its public keyset, and ciphertexts made with the public keyset are decrypted by the private one. The C++ ciphertexts are non-empty, and tags and signatures longer than five bytes. For streaming AEAD nothing is assumed of the C++ primitive but lawful AES-GCM, AES-CTR, HMAC and HKDF: streams can be made, and what is written is what reads return.", "quantifier": "all predefined templates, all key ids, inputs and registries after registration", "why_tests_cant": "All inputs and key ids; composition of all layers.", "anchors": ["python/tink/tink_config.py:register", "python/tink/_keyset_handle.py:KeysetHandle", "python/tink/core/_registry.py:Registry", "python/tink/aead/_aead_key_manager.py", "python/tink/signature/_signature_key_manager.py", "python/tink/hybrid/_hybrid_key_manager.py"]}
{"id": "C67", "title": "Streaming ciphertexts decrypt to the plaintext", "statement": "What was written through an encrypting stream of an AES-GCM-HKDF or AES-CTR-HMAC streaming key, in whatever pieces and with whatever partial writes of the destination, and then closed without an error, decrypts to the bytes that were written: with the same key and associated data, every read that returns, from any source that delivers the ciphertext (in any pieces, with pauses), returns the next bytes of the plaintext, and b'' only after all of it; no exception is raised. The same holds for keysets, provided that the other keys refuse the ciphertext or decrypt it alike. A key refuses a ciphertext (its reads return nothing, not even the end of the file, and raise nothing but TinkError) if the header has not the size that it expects, or if the first segment passes AES-GCM or HMAC with the key derived for that header neither as the last segment nor as one that others follow. Assumes that AES-GCM, AES-CTR and HMAC undo and verify what they made, and that a last segment does not verify as one that is not the last.", "quantifier": "all keys of the two types, plaintexts, associated data, random choices, divisions into writes and reads, partial writes, sources and keysets", "why_tests_cant": "Segment boundaries, buffers and partial writes interact for every length and every division.", "anchors": ["cc/subtle/streaming_aead_encrypting_stream.cc", "cc/subtle/streaming_aead_decrypting_stream.cc", "cc/subtle/nonce_based_streaming_aead.cc", "cc/subtle/aes_gcm_hkdf_streaming.cc", "cc/subtle/aes_ctr_hmac_streaming.cc", "python/tink/streaming_aead/_encrypting_stream.py", "python/tink/streaming_aead/_decrypting_stream.py", "python/tink/streaming_aead/_streaming_aead_wrapper.py"]}
{"id": "C68", "title": "Streams deliver only what was encrypted, in order and to its end", "statement": "With ideal AES-GCM, HMAC and HKDF (only what was encrypted with a derived key can be decrypted with it), whatever a source delivers (segments cut off, left out, repeated, reordered, taken from other messages or altered) and whatever calls are made, a decrypting stream returns only the first bytes of one message that was encrypted with the key and the same associated data, reports the end of the file only after all of that message, and raises nothing but TinkError. The same for keysets all of whose keys are of this kind. So a key refuses every ciphertext whose header is not that of a message encrypted with it, and every ciphertext at all for associated data with which it encrypted nothing. Bytes appended to a ciphertext whose last segment is full go unnoticed (violation of non-malleability; the plaintext is right).", "quantifier": "all sources, call histories, sets of messages, associated data, keys and keysets", "why_tests_cant": "All attacks on the ciphertext.", "anchors": ["cc/subtle/streaming_aead_decrypting_stream.cc", "cc/subtle/aes_gcm_hkdf_stream_segment_decrypter.cc", "cc/subtle/aes_ctr_hmac_streaming.cc", "python/tink/streaming_aead/_decrypting_stream.py", "python/tink/streaming_aead/_streaming_aead_wrapper.py"]}
{"id": "C69", "title": "Streaming ciphertext format and unique nonces", "statement": "What an encrypting stream that was closed without an error wrote has the documented format: one byte with the size of the header, the salt, the nonce prefix, and the encrypted segments, where the first plaintext segment is smaller by the header (and the offset), the others but the last are full, and segment j is encrypted, with the key derived from the salt and the associated data, with the nonce made of the prefix, j in 4 bytes, and a byte that is 1 for the last segment only. No two segments of a message share a nonce.", "quantifier": "all keys, plaintexts, associated data and divisions into writes", "why_tests_cant": "All lengths; other implementations depend on the format.", "anchors": ["cc/subtle/aes_gcm_hkdf_stream_segment_encrypter.h", "cc/subtle/aes_ctr_hmac_streaming.h", "cc/subtle/streaming_aead_encrypting_stream.cc"]}
{"id": "C70", "title": "Streaming keys that can be made can be used", "statement": "An AES-GCM-HKDF or AES-CTR-HMAC streaming key is made from a key format exactly if the hash functions are SHA1, SHA256 or SHA512, the derived keys have 16 or 32 bytes, the key at least as many, the tag 10 bytes or more but no more than the digest, and a segment has room for header, tag and one byte. Key data, wherever they come from, give a primitive exactly under the same conditions and for version 0. Key data that were made can be stored, give the primitive with the parameters asked for and with the random key, and streams can be made with it. Exceptions (violations): AES-GCM-HKDF with segments of 2^31 bytes or more, and keys of 2 GiB: a keyset is made, but it has no primitive.", "quantifier": "all key formats, key data and random choices; all predefined templates", "why_tests_cant": "All parameter values; the two validations and the conversion between integer types have to agree.", "anchors": ["cc/streamingaead/aes_gcm_hkdf_streaming_key_manager.cc", "cc/streamingaead/aes_ctr_hmac_streaming_key_manager.cc", "cc/core/key_manager_impl.h", "cc/util/validation.cc", "python/tink/streaming_aead/_streaming_aead_key_templates.py"]}
{"id": "C71", "title": "Encrypting and decrypting streams behave like files", "statement": "The streams that new_encrypting_stream and new_decrypting_stream return are buffered. If close() of an encrypting stream returns normally, no earlier write or flush has raised, and the arguments of all writes, one after the other, are what was encrypted. A decrypting stream for it (same associated data, a keyset with the key, the others refuse the ciphertext) is like a file with this content: read(n) returns the next n bytes or those that are left, read() all that are left, read1(n) at least one byte unless n is 0 or none are left; no call raises or returns None, although the source may return few bytes at a time or pause. For any source at all, with ideal cryptography, a decrypting stream is like a file whose content is one of the messages encrypted with the keyset's keys and the associated data, until TinkError is raised. A source that is not readable and a destination that is not writable are refused with ValueError.", "quantifier": "all histories of calls, all choices of the buffered classes when to call the raw stream and for how many bytes, all sources, destinations, keysets and predefined templates", "why_tests_cant": "Divisions into calls, buffer fill states and failures combine without bound.", "anchors": ["python/tink/streaming_aead/_streaming_aead_wrapper.py:_WrappedStreamingAead", "python/tink/streaming_aead/_streaming_aead_wrapper.py:_DecryptingStreamWrapper.readinto", "python/tink/streaming_aead/_encrypting_stream.py:RawEncryptingStream", "python/tink/streaming_aead/_decrypting_stream.py:RawDecryptingStream"]}
{"id": "C72", "title": "Closing a stream closes the underlying file, once", "statement": "The ciphertext source of a keyset's decrypting stream is closed by close() only, not by reads and not when keys are given up and their streams are garbage collected; and only once, except that close() can be repeated after closing the source has raised, which close() passes on. After close() has returned normally read raises ValueError and close() has no effect; after it has raised, read of any size but 0 raises ValueError; neither uses the source. The destination of an encrypting stream is closed by close() only, at most once whatever fails, and once if close() has returned normally. Violation: if the destination raises while it is written to, it is never closed, although close() is called, even repeatedly.", "quantifier": "all histories of read, write and close, keysets, sources and destinations, and all results of closing them", "why_tests_cant": "Histories with failures at any point.", "anchors": ["python/tink/streaming_aead/_streaming_aead_wrapper.py:_DecryptingStreamWrapper.close", "python/tink/streaming_aead/_rewindable_input_stream.py:RewindableInputStream.close", "python/tink/streaming_aead/_decrypting_stream.py:RawDecryptingStream.close", "python/tink/streaming_aead/_encrypting_stream.py:RawEncryptingStream.close", "cc/subtle/streaming_aead_encrypting_stream.cc", "python/tink/cc/python_output_stream.cc"]}
{"id": "C73", "title": "A decrypting stream that has failed stays failed", "statement": "After a read of a keyset's raw decrypting stream has raised TinkError, all reads do, whatever the source does (also if it has recovered from an error); no other key is tried. Of the buffered stream that users get: with ideal cryptography, all calls, also those after a failure, are like those on a file whose content is one of the messages, or raise TinkError, so that no bytes are returned that are wrong, out of order or after bytes that were lost in the failure.", "quantifier": "all histories of calls, sources, keysets whose streams can be opened, associated data and messages, and all choices of the buffered reader", "why_tests_cant": "Failures at any point, followed by any calls.", "anchors": ["python/tink/streaming_aead/_streaming_aead_wrapper.py:_DecryptingStreamWrapper.read", "python/tink/streaming_aead/_decrypting_stream.py:RawDecryptingStream.read", "cc/subtle/streaming_aead_decrypting_stream.cc"]}
{"id": "C74", "title": "Serialized keysets have the documented formats", "statement": "What is written is what tink.proto and the protobuf encodings prescribe: the binary writer writes the fields of the keyset by ascending number, without defaults, varints and UTF-8 texts, and of an encrypted keyset the ciphertext alone; the JSON writer a text that json.loads reads as the document of lowerCamelCase names, names of enum values and padded base64. What other implementations write is read as the keyset it says: in binary, fields in any order, defaults written or left out, and unknown fields; in JSON, members in any order and by either name, integers as numbers or texts, enum values by name or number, both base64 alphabets with or without padding, null for defaults. Not covered: singular fields that occur more than once; empty binary input, which is refused.", "quantifier": "all keysets, encrypted keysets, and all bytes and texts that encode them", "why_tests_cant": "All keysets and all spellings; other implementations depend on the format, and a round trip does not notice a wrong one.", "anchors": ["proto/tink.proto", "python/tink/_keyset_writer.py", "python/tink/_keyset_reader.py", "python/tink/_json_proto_keyset_format.py", "python/tink/_proto_keyset_format.py"]}
{"id": "C75", "title": "Key templates and keys are serialized as the .proto files prescribe", "statement": "The value of a key template, predefined or created with parameters, is the key format message of its key type with the field numbers, enum numbers and nesting of the .proto files, the parameters in the fields meant for them, and nothing else; the key type is named by its type URL. JWT keys (as made from and turned into JWKs), keys in a KMS and streaming keys are written as the messages of their .proto files and read from them.", "quantifier": "all parameters for which a template is created, all predefined templates, all JWT, KMS and streaming keys", "why_tests_cant": "All parameters; other implementations read the templates and keys, and a round trip does not notice a wrong field number.", "anchors": ["proto", "python/tink/aead/_aead_key_templates.py", "python/tink/mac/_mac_key_templates.py", "python/tink/daead/_deterministic_aead_key_templates.py", "python/tink/prf/_prf_key_templates.py", "python/tink/hybrid/_hybrid_key_templates.py", "python/tink/signature/_signature_key_templates.py", "python/tink/streaming_aead/_streaming_aead_key_templates.py", "python/tink/jwt/_jwt_key_templates.py", "python/tink/jwt/_jwk_set_converter.py"]}
{"id": "C76", "title": "A verified token tells what its payload says, and what its issuer said", "statement": "Of every token that verification returns, has_x() is true exactly if the payload (for the type header: the header) has the entry, x() then returns its value and otherwise raises KeyError: issuer, subject, jwt id are texts, audiences a non-empty list of texts (of one, if the claim is a text), expiration and not_before are datetimes in UTC between 1970 and 9999 at the time of the claim, custom_claim_names are the other names of the payload and custom_claim returns their values and raises JwtInvalidError for registered names. For a token that was made with new_raw_jwt this is what was given there (times in whole seconds; an empty issuer, subject or type header is none). The same holds of raw_jwt_from_json; a validator tells its arguments. Violations: issued_at() of a verified token raises ValueError if the claim is NaN and the validator does not look at it; type_header() is not a text if it is something else in the token and the validator ignores it.", "quantifier": "all keysets, tokens, validators, times and arguments of new_raw_jwt for which C41 holds", "why_tests_cant": "All payloads an issuer might write, in any order and spelling.", "anchors": ["python/tink/jwt/_verified_jwt.py:VerifiedJwt", "python/tink/jwt/_raw_jwt.py:RawJwt", "python/tink/jwt/_jwt_validator.py:JwtValidator"]}
{"id": "C77", "title": "Tokens do not share lists and dicts with the program", "statement": "A token (made with new_raw_jwt, or raw_jwt_from_json as in verification) says for ever what it said when it was made, whatever the program does with the lists and dicts it passed as arguments or got from the token's methods, and with those inside them; it says what the arguments said at the time of the call. Neither making a token nor its methods change a list or dict of the program. An argument that contains itself raises ValueError. Violation: a type header that is a list or dict (in a token whose validator ignores it) is returned by type_header() without copying, so that the program can change the token.", "quantifier": "all programs: sequences of making and changing lists and dicts, making tokens and calling their methods, in which type headers are not lists or dicts", "why_tests_cant": "Depends on which objects are shared, for every sequence of changes.", "anchors": ["python/tink/jwt/_raw_jwt.py:RawJwt.create", "python/tink/jwt/_raw_jwt.py:RawJwt.audiences", "python/tink/jwt/_raw_jwt.py:RawJwt.custom_claim", "python/tink/jwt/_verified_jwt.py:VerifiedJwt"]}
{"id": "C78", "title": "A keyset handle keeps its keyset", "statement": "A handle that was generated, read, parsed, made of another handle's public keys or by a keyset builder keeps its keyset for ever, whatever the program does with other handles, with builders (also those made of the handle) and with its own Keyset messages, as long as it does not get hold of the handle's message with to_proto_keyset and secret access, a writer, or a key manager of its own. Violations: cleartext_keyset_handle.from_keyset and from_proto_keyset keep the caller's message, and to_proto_keyset returns the handle's; changing it changes the handle, even to an invalid keyset.", "quantifier": "all programs: sequences of making and changing messages, making handles in every way, editing builders", "why_tests_cant": "Depends on which objects are shared, for every sequence of changes.", "anchors": ["python/tink/_keyset_handle.py:KeysetHandle", "python/tink/cleartext_keyset_handle.py", "python/tink/_insecure_keyset_handle.py", "python/tink/testing/keyset_builder.py:KeysetBuilder"]}
{"id": "C79", "title": "Reading a decrypting stream comes to an end", "statement": "If the ciphertext source comes to an end (from each state on it delivers a bounded number of bytes and pauses a bounded number of times; then it returns b'' or raises), every call on a keyset's decrypting stream returns: no read of the raw stream hangs, whatever the source delivers, valid or not, and whichever keys are tried; the buffered stream makes finitely many of them and then has a result. Of all reads of the raw stream only finitely many return bytes, also if others in between raise; so a caller who reads until there is nothing more gets there. If the source is a ciphertext that a key decrypts (as in C71), the result is that of the same call on a file with the plaintext; in particular read() on a new stream returns the plaintext.", "quantifier": "all keysets of AES-GCM-HKDF and AES-CTR-HMAC streaming keys, contents and behaviours of sources that come to an end, histories of calls, and choices of the buffered reader", "why_tests_cant": "Non-termination cannot be observed by a test, and there is a loop at every level: the buffered reader, readall, read, the keys, the segments, and the pieces that the source delivers.", "anchors": ["python/tink/streaming_aead/_streaming_aead_wrapper.py:_DecryptingStreamWrapper.read", "python/tink/streaming_aead/_decrypting_stream.py:RawDecryptingStream.read", "cc/subtle/streaming_aead_decrypting_stream.cc", "python/tink/cc/python_input_stream.cc", "python/tink/cc/input_stream_adapter.cc"]}
{"id": "C80", "title": "Writing to an encrypting stream comes to an end, and succeeds up to a limit", "statement": "If the destination does not go on accepting nothing (from each state on it accepts none of the bytes a bounded number of times, then some, or raises), every call on a keyset's encrypting stream returns, also after calls that raised: no write to the raw stream hangs, each accepts at least one byte or raises, so that the buffered stream makes finitely many; flush() and close() have a result. If the destination never raises and no more is written than the key can encrypt with one stream, no call raises and close() returns normally; that is 2^32 segments, and more cannot be encrypted; for predefined templates 8 TiB or more. With C79: with such a source, destination and library, everything written can be read, no call hangs and none raises. If the destination accepts nothing for ever, without raising, close() does not return.", "quantifier": "all keysets of AES-GCM-HKDF and AES-CTR-HMAC streaming keys, destinations, histories of write and flush, choices of the buffered writer, and predefined templates", "why_tests_cant": "Non-termination cannot be observed by a test, and the limit is far above what a test writes.", "anchors": ["python/tink/streaming_aead/_encrypting_stream.py:RawEncryptingStream.write", "cc/subtle/streaming_aead_encrypting_stream.cc", "python/tink/cc/python_output_stream.cc", "python/tink/cc/output_stream_adapter.cc", "cc/subtle/aes_gcm_hkdf_stream_segment_encrypter.cc", "cc/subtle/aes_ctr_hmac_streaming.cc"]}
{"id": "C81", "title": "What is read as JSON is JSON, and what is written too", "statement": "json_loads, which reads the headers and payloads of tokens, accepts exactly the texts that the grammar of RFC 8259 (with Python's NaN and infinities) allows, in which no object repeats a name, strings of objects are valid Unicode, and nesting and digits stay below the interpreter's limits; it returns the value that the grammar gives to the text, which is unique. json.loads without Tink's checks, which reads JWK sets, does the same but the last of several pairs with one name counts. What json_dumps and the JSON keyset writer write are texts of this grammar with the value or keyset written; the JSON keyset readers read every text of the grammar whose value describes a keyset, and accept nothing that is not of the grammar or repeats a name.", "quantifier": "all texts and values", "why_tests_cant": "All texts; a round trip does not notice if reader and writer agree on something else than JSON.", "anchors": ["python/tink/jwt/_json_util.py:json_loads", "python/tink/jwt/_json_util.py:json_dumps", "python/tink/_json_proto_keyset_format.py", "python/tink/_keyset_reader.py:JsonKeysetReader", "python/tink/_keyset_writer.py:JsonKeysetWriter", "python/tink/jwt/_jwk_set_converter.py"]}
{"id": "C82", "title": "Tokens have the compact form of the standards, and right tokens of others are accepted", "statement": "A token made with new_raw_jwt and encoded by a keyset has the form of RFC 7515: three parts with dots between them; the header the base64url form (without padding, unused bits zero) of the UTF-8 form of a JSON object with the algorithm of the primary key, its kid (for TINK keys the base64url form of the four bytes of the key id, else the custom kid unless empty), the type unless empty, and nothing else; the payload the same of the payload; and the base64url form of the signature or MAC that C++ makes of the first two parts with the dot. Verification accepts a token exactly if it is right for an enabled key, wherever it is in the keyset (if checks by C++ raise only TinkError; otherwise, if those tried before it do): of this form (unused bits need not be zero), with JSON objects that repeat no name as header and payload, a signature that the key verifies, a header that matches algorithm and kid of the key and has no crit, claims of the types of RFC 7519, and the validator agrees. The result is what the payload says.", "quantifier": "all keysets of JWT keys, tokens from anywhere, validators, times, and arguments of new_raw_jwt whose strings are valid Unicode", "why_tests_cant": "All tokens that other issuers might write; a round trip does not notice a form that only Tink understands.", "anchors": ["python/tink/jwt/_jwt_format.py", "python/tink/jwt/_jwt_hmac_key_manager.py:_JwtHmac", "python/tink/jwt/_jwt_signature_key_manager.py", "python/tink/jwt/_jwt_mac_wrapper.py", "python/tink/jwt/_jwt_signature_wrappers.py", "python/tink/jwt/_raw_jwt.py"]}
{"id": "C83", "title": "An encryption that was interrupted is not taken for a complete one", "statement": "Until close() is called on an encrypting stream, nothing that its destination has received, at any moment, also in the midst of a call and after calls that raised, passes for a complete message: with ideal cryptography a decrypting stream on it returns first bytes of what was written and then raises TinkError, and never reports the end. After close() was called, even if it raised, the end is reported only after all that was written. While the message is unfinished, the same holds for any other content of the ciphertext source: it delivers finished messages, or the start of the unfinished one without an end. What close() means is up to the program: if a with block is left by an exception, or the stream is dropped, io calls close(), and the destination has a valid encryption of what was written until then, which recipients cannot tell from a complete one.", "quantifier": "all AES-GCM-HKDF and AES-CTR-HMAC streaming keys, histories of write and flush, choices of the buffered writer, destinations (that may stop at any moment), moments, sources and histories of reads", "why_tests_cant": "A program can stop at every moment, and what the destination has then depends on every buffer in between.", "anchors": ["python/tink/streaming_aead/_encrypting_stream.py:RawEncryptingStream", "python/tink/streaming_aead/_streaming_aead_wrapper.py:_WrappedStreamingAead.new_encrypting_stream", "cc/subtle/streaming_aead_encrypting_stream.cc", "python/tink/cc/python_output_stream.cc"]}
{"id": "C84", "title": "The example programs do to files what the library does to bytes", "statement": "aead_cli, deterministic_aead_cli, hybrid_cli, mac_cli, signature_cli, cleartext_keyset_cli, envelope_cli and gcs_envelope_aead_cli end with exit status 0 exactly if the files they need can be read, the keyset file is a keyset in the JSON format (in UTF-8, whatever the line ends) that gives the primitive, the primitive's operation on the input file succeeds and the result could be written; then the output file holds exactly the result (of mac and signature: its hexadecimal digits) and no other file changed. Otherwise the status is 1, no other file than the output file changed, and of aead, deterministic_aead, mac, signature and envelope not that one either, unless the disk refused it half-way. Verifying changes nothing, and exits with 0 exactly if the code file is the hexadecimal form (any case, white space around it) of a code that verification accepts. So a second run with the same (or the public) keyset file restores the file, or accepts the code; with cleartext_keyset_cli also the keyset file that an earlier run generated. Without an input or output path that program changes no file and exits with 1. Violation: hybrid_cli and the decryption of gcs_envelope_aead_cli open the output file before they encrypt or decrypt, so that a failure leaves an existing file empty.", "quantifier": "all contents of files and flags, keysets, file systems in which some files cannot be read or written completely, KMS servers and cloud storages, and pairs and triples of runs", "why_tests_cant": "All files and failures; what is left behind after a failure at each point.", "anchors": ["python/examples/aead/aead_cli.py", "python/examples/deterministic_aead/deterministic_aead_cli.py", "python/examples/hybrid/hybrid_cli.py", "python/examples/mac/mac_cli.py", "python/examples/signature/signature_cli.py", "python/examples/cleartext_keyset/cleartext_keyset_cli.py", "python/examples/envelope_aead/envelope_cli.py", "python/examples/gcs/gcs_envelope_aead_cli.py"]}
{"id": "C85", "title": "Who has the JWK set of a keyset verifies the same tokens", "statement": "A public keyset is exported as a JWK set and imported elsewhere. If the C++ libraries of both take the exported keys and judge signatures by algorithm and numbers of the key, the imported keyset gives a JwtPublicKeyVerify in a process that has registered JWT signatures, and that accepts, with the same result, every token that the original keyset accepts. It accepts exactly the tokens that are right for an enabled key of the original keyset, where for keys with prefix the kid must match only if the token has one. So it accepts the same tokens as the original if they have a kid and no key with prefix has a custom kid besides. Violations without these conditions: a token without kid signed with a key with prefix is refused by the keyset and accepted after export and import; so is every token of a key with prefix and a custom kid.", "quantifier": "all public keysets that can be exported, draws of key ids, tokens, validators and times", "why_tests_cant": "All keysets and tokens; a verifier that is too strict or too lenient after import shows only on particular tokens.", "anchors": ["python/tink/jwt/_jwk_set_converter.py:from_public_keyset_handle", "python/tink/jwt/_jwk_set_converter.py:to_public_keyset_handle", "python/tink/jwt/_jwt_signature_wrappers.py", "python/tink/jwt/_jwt_format.py:validate_header", "python/tink/jwt/_jwt_signature_key_manager.py"]}
{"id": "C86", "title": "The example programs for JWTs: what one signs the other verifies, until it expires", "statement": "jwt_sign_cli ends with status 0 exactly if the keyset file can be read and signs, and the token could be written; then the token file holds nothing but a token for the given audience that expires 100 seconds after the run, and no other file changed. jwt_generate_public_jwk_set does the same with the JWK set of a public keyset file. Otherwise the status is 1 and no file changed, unless the disk refused the output half-way. jwt_verify_cli changes nothing and exits with 0 exactly if the JWK set file can be imported and the keyset accepts exactly the text of the token file, at that time and for that audience; with a line end added to the token it exits with 1. So if a token is signed and the JWK set of the public keyset that belongs to the private one is generated, verification with that JWK set and the same audience succeeds up to 99 seconds after signing. If a token file of jwt_sign_cli is verified with status 0, with whatever JWK set, it was signed for that audience and less than 100 seconds ago (in the years from 1970 to 2514; otherwise less than 101).", "quantifier": "all contents of files, keysets, audiences that are valid Unicode (for the runs in sequence), times, file systems in which some files cannot be read or written completely, draws of key ids, and sequences of the three programs", "why_tests_cant": "All files and moments; the rounding of times decides about the last second.", "anchors": ["python/examples/jwt/jwt_sign_cli.py", "python/examples/jwt/jwt_generate_public_jwk_set.py", "python/examples/jwt/jwt_verify_cli.py", "python/tink/jwt/_jwk_set_converter.py", "python/tink/jwt/_jwt_validator.py"]}
{"id": "C87", "title": "The example program for large files encrypts all of a file or says so, and decrypts nothing that was not encrypted", "statement": "streaming_aead_cli, however the streams divide what they read and write: if the keyset file, the associated data, the input file or the output file is missing or unusable, or the keyset gives no streaming AEAD, it exits with 1 and changes nothing; otherwise it changes no other file than the output file. Whatever fails and whatever the input file holds, it ends. An encryption with status 0 has left a complete encryption of the input file, with the primary key and that associated data; and the status is 0, and the program ends, whenever the disk does not fail and the file is not larger than the key can encrypt. If with that associated data the enabled keys deliver nothing but certain messages (ideal cryptography), a decryption with status 0 of whatever input file has left one of them, and with status 1 nothing or first bytes of one, in whole blocks of 1 MiB unless the output could not be written. A decryption of what some enabled key decrypts ends, with status 0 and the plaintext, if the disk does not fail. So decryption restores what was encrypted, for files of up to 8 TiB with every predefined template, and with keysets of several keys if the first segment does not pass with the other enabled keys (see C67). Violations of what one might expect: if reading the input file fails, the status is 1, but what is left is a complete encryption of the blocks read before; if input and output are the same file, the content is lost though the status is 0.", "quantifier": "all contents of files and flags, keysets of AES-GCM-HKDF and AES-CTR-HMAC streaming keys, choices of the buffered readers and writers, failures of reads and writes at any point, and pairs of runs", "why_tests_cant": "Files of many blocks, every point of failure, and all ways to divide the work among buffers.", "anchors": ["python/examples/streaming_aead/streaming_aead_cli.py", "python/tink/streaming_aead/_streaming_aead_wrapper.py", "python/tink/streaming_aead/_encrypting_stream.py", "python/tink/streaming_aead/_decrypting_stream.py", "cc/subtle/streaming_aead_encrypting_stream.cc", "cc/subtle/streaming_aead_decrypting_stream.cc"]}
{"id": "C88", "title": "A keyset kept under a KMS key is usable wherever the KMS key is", "statement": "GetKmsAead, WriteEncryptedKeyset and LoadEncryptedKeyset of the walkthrough, after aead.register() and with any registered KMS clients: the AEAD for a URI encrypts and decrypts as the AEAD that the first client supporting the URI returns for it, adding nothing to ciphertexts (refusals become TinkError); if the clients raise, the functions raise that and write nothing. WriteEncryptedKeyset appends to the stream one JSON text holding what the KMS made of the serialized keyset with the associated data, after checking that the KMS gives the keyset back, or raises and appends nothing; it succeeds if the KMS can encrypt and decrypt the keyset. LoadEncryptedKeyset returns exactly the valid keysets whose serialization the KMS gives for the text's ciphertext under the associated data; if the KMS refuses with a TinkError, TinkError is raised. So a keyset written by one process is loaded by another with other clients, C++ library and key ids, if its KMS client decrypts what the first one's encrypts, and then decrypts what the first process encrypted with it. Keysets made separately by two processes from the same KMS envelope template decrypt each other's ciphertexts, which consist of the length of the encrypted data key, that key, and the data's ciphertext. With the KMS for tests, fake-kms:// and the base64url form of any serialized keyset, padded or not, is the URI of a key with this keyset's AEAD; URIs without fake-kms:// are refused, and a client made for one URI says of every other that it does not support it. Violation: though documented to raise TinkError in case of errors, the functions pass on other exceptions of the clients, for instance ValueError for fake-kms://A.", "quantifier": "all keysets, URIs without surrogates and below 500 million characters, lists of KMS clients (which may raise anything), associated data, texts, random numbers and pairs of processes", "why_tests_cant": "All keysets and clients; two processes that share nothing but the URI.", "anchors": ["python/examples/walkthrough/write_keyset.py", "python/examples/walkthrough/load_encrypted_keyset.py", "python/examples/walkthrough/create_keyset.py", "python/examples/walkthrough/obtain_and_use_a_primitive.py", "python/examples/walkthrough/write_cleartext_keyset.py", "python/examples/walkthrough/load_cleartext_keyset.py", "python/tink/aead/_kms_aead_key_manager.py", "python/tink/aead/_kms_envelope_aead.py", "python/tink/testing/fake_kms.py"]}
{"id": "C89", "title": "Symmetric keys are accepted exactly if they are strong enough, and new ones are", "statement": "C++ has primitives for the key types AES-CTR-HMAC, AES-GCM, AES-GCM-SIV, AES-EAX, XChaCha20-Poly1305 (AEAD), AES-SIV (deterministic AEAD), HMAC, AES-CMAC (MAC), HMAC, HKDF and AES-CMAC (PRF), and no other. It makes a primitive of key data exactly if they are a serialized key of version 0 that is strong enough: AES keys of 16 or 32 bytes (AES-SIV 64, AES-CMAC 32), XChaCha20-Poly1305 keys of 32, HMAC keys of at least 16 with tags of at least 10 bytes and at most the digest of a known hash function, nonces of 12 or 16 bytes (AES-EAX) or 12 to 16 (AES-CTR), HKDF keys of at least 32 bytes with SHA-256 or SHA-512. It makes a key for a key format exactly if the key asked for would be strong enough; the new key data hold random bytes of the sizes asked for, with these parameters, have the key type and are SYMMETRIC, and there is a primitive for them, if the key has less than 2^31-1000 bytes. Violation: HMAC keys (MAC and PRF) of 2 GiB or more are made, too, but come out as empty key data that give no primitive.", "quantifier": "all key types, key data below 2 GiB, key formats, and randomness", "why_tests_cant": "All sizes and parameters; weak keys are accepted or good ones refused only at particular ones.", "anchors": ["cc/aead/aes_gcm_key_manager.h", "cc/aead/aes_gcm_siv_key_manager.h", "cc/aead/aes_eax_key_manager.h", "cc/aead/xchacha20_poly1305_key_manager.h", "cc/aead/aes_ctr_hmac_aead_key_manager.cc", "cc/daead/aes_siv_key_manager.h", "cc/mac/hmac_key_manager.cc", "cc/mac/aes_cmac_key_manager.h", "cc/prf/hmac_prf_key_manager.cc", "cc/prf/hkdf_prf_key_manager.h", "cc/prf/aes_cmac_prf_key_manager.h", "python/tink/cc/cc_key_manager.h"]}
{"id": "C90", "title": "Symmetric primitives are exact", "statement": "The AEAD of a key decrypts exactly the ciphertexts that it may produce (with some random nonce) for the same associated data, each to the text it was made from; ciphertexts are longer than the text by a number of bytes that the key determines; texts and associated data below 2 GiB are encrypted without failure. The same holds of deterministic AEAD, which never fails and has one ciphertext for a text. A MAC computes one tag for each text, of the size that the key prescribes, and accepts this one and no other. A PRF returns the first n bytes of one output, as long as the key type allows (the digest for HMAC, 16 bytes for AES-CMAC, 255 digests for HKDF), and refuses if n is larger; for HKDF, if n is below 2 GiB.", "quantifier": "all keys of the types of C89, texts, associated data, ciphertexts and tags from anywhere, and randomness; BoringSSL is assumed to open exactly what it seals", "why_tests_cant": "All texts, lengths around block boundaries, and all ciphertexts that nobody made.", "anchors": ["cc/subtle/aes_eax_boringssl.cc", "cc/subtle/aes_siv_boringssl.cc", "cc/subtle/encrypt_then_authenticate.cc", "cc/subtle/aes_ctr_boringssl.cc", "cc/subtle/hmac_boringssl.cc", "cc/subtle/aes_cmac_boringssl.cc", "cc/aead/internal/ssl_aead.cc", "cc/aead/internal/zero_copy_aes_gcm_boringssl.cc", "cc/subtle/aes_gcm_siv_boringssl.cc", "cc/subtle/xchacha20_poly1305_boringssl.cc", "cc/subtle/prf/prf_set_util.cc", "cc/subtle/prf/hkdf_streaming_prf.cc", "cc/util/input_stream_util.cc"]}
{"id": "C91", "title": "Ciphertexts are those of the published algorithms", "statement": "An AEAD returns, for a random nonce of the size that the key prescribes, the nonce followed by what the algorithm gives: AES-GCM, AES-GCM-SIV and XChaCha20-Poly1305 as BoringSSL computes them, AES-EAX as defined by Bellare, Rogaway and Wagner, AES-CTR-HMAC as counter mode followed by the HMAC, truncated, of associated data, nonce, encrypted text and the length of the associated data in bits. It decrypts every such ciphertext with a nonce of this size, whoever made it. Deterministic AEAD returns the ciphertext of AES-SIV of RFC 5297, with one string of associated data. So other implementations can decrypt.", "quantifier": "all AEAD and AES-SIV keys, nonces, texts and associated data (of less than 2^64 bytes)", "why_tests_cant": "A round trip does not notice a deviation that encryption and decryption share; test vectors have few lengths.", "anchors": ["cc/subtle/aes_eax_boringssl.cc", "cc/subtle/aes_siv_boringssl.cc", "cc/subtle/encrypt_then_authenticate.cc", "cc/subtle/aes_ctr_boringssl.cc", "cc/internal/aes_util.cc"]}
{"id": "C92", "title": "AES-CTR-HMAC cannot be misled about where associated data end", "statement": "Every ciphertext that an AES-CTR-HMAC key decrypts ends with an HMAC tag for a string that is determined by ciphertext and associated data. If ciphertext or associated data differ from those of an encryption, so does this string from the one that the encryption computed a tag for. So who makes an accepted ciphertext that was not produced has forged an HMAC tag.", "quantifier": "all AES-CTR-HMAC keys, ciphertexts, texts and pairs of associated data (of less than 2^64 bytes)", "why_tests_cant": "All ways of moving bytes between associated data and ciphertext.", "anchors": ["cc/subtle/encrypt_then_authenticate.cc"]}
{"id": "C93", "title": "HKDF outputs that are too long", "statement": "compute of an HKDF key refuses lengths larger than 255 digests. Violated from 2 GiB on: the length is taken modulo 2^32, and if what remains is 2^31 or more, the result is empty, without an error; otherwise it is the output of the remaining length. So for every HKDF key and input there is a length that is too large and not refused.", "quantifier": "all HKDF PRF keys, inputs and lengths", "why_tests_cant": "A length near 2^31 is not tested.", "anchors": ["cc/subtle/prf/prf_set_util.cc", "cc/util/input_stream_util.cc", "python/tink/prf/_prf_key_manager.py"]}
{"id": "C94", "title": "What a keyset of symmetric keys does, from Python down to the block cipher", "statement": "In a process that has registered the package, a keyset whose enabled keys are of the types of C89 gives a primitive exactly if it is valid and each enabled key has a known prefix type (for PRF: is RAW) and is strong enough. encrypt returns the prefix of the primary key followed by the ciphertext of C91 for the primary key and a random nonce, or raises TinkError where there is none; decrypt returns the text of which the ciphertext is the one of some enabled key, after its prefix and for some nonce; if there are several such keys, that of the first, keys with a prefix before RAW keys; and TinkError is all that is raised. encrypt_deterministically and decrypt_deterministically do the same with AES-SIV. compute_mac returns the prefix and the tag of the primary key; verify_mac accepts exactly the tags of more than 5 bytes that some enabled key computes, after its prefix, and otherwise raises TinkError. The PRFs of a PRF set are those of the enabled keys, by id (for lengths below 2 GiB). For every predefined template, generating a keyset and obtaining the primitive succeeds, the key holds random bytes as the template prescribes, and the primitive decrypts, or verifies, exactly what it may produce.", "quantifier": "all keysets of the symmetric key types, all predefined templates, all inputs, and randomness", "why_tests_cant": "All keysets and templates; the composition of a dozen layers in two languages.", "anchors": ["python/tink/_keyset_handle.py:KeysetHandle.primitive", "python/tink/core/_registry.py", "python/tink/aead/_aead_wrapper.py", "python/tink/daead/_deterministic_aead_wrapper.py", "python/tink/mac/_mac_wrapper.py", "python/tink/prf/_prf_set_wrapper.py", "python/tink/aead/_aead_key_templates.py", "python/tink/cc/pybind", "cc/subtle", "cc/aead", "cc/daead", "cc/mac", "cc/prf"]}
{"id": "C95", "title": "JWTs with MACs are those of RFC 7515 and RFC 7518, from Python down to HMAC", "statement": "After register_jwt_mac, and until the registry is reset, whatever else is registered before and after, a keyset gives a JwtMac exactly if it is valid and each enabled key is TINK or RAW, has version 0, one of the algorithms HS256, HS384 and HS512, and a secret at least as long as the digest. compute_mac_and_encode makes header.payload.signature where the signature is HMAC, with the hash function of the header's algorithm and the secret of the primary key, of header, dot and payload. verify_mac_and_decode accepts a token exactly if, for an enabled key, the signature part is HMAC with that key's secret of the first two parts, and header, payload, validator and clock are right for the key. What one keyset makes is accepted by every keyset that has the key enabled, if the validator accepts it. A key is made of a template exactly if the algorithm is one of the three and the size asked for is at least the digest's; the secret is random of that size; otherwise TinkError is raised. For each of the six predefined templates, a keyset can be generated, has a random key of the digest's size, and makes and accepts tokens of everything that can be written as JSON.", "quantifier": "all histories of registrations, keysets, tokens, templates (key sizes below 2^31-1000), validators, clocks and randomness", "why_tests_cant": "All keysets, tokens and histories; weak keys or mismatched algorithms are accepted only for particular ones.", "anchors": ["python/tink/jwt/_jwt_hmac_key_manager.py", "python/tink/jwt/_jwt_mac_wrapper.py", "python/tink/jwt/_jwt_key_templates.py", "python/tink/jwt/__init__.py:register_jwt_mac", "cc/jwt/internal/raw_jwt_hmac_key_manager.cc", "cc/jwt/internal/raw_jwt_hmac_key_manager.h"]}
{"id": "C96", "title": "Which signature keys are accepted and made", "statement": "C++ has signers and verifiers for the key types ECDSA, Ed25519, RSA-SSA-PKCS1 and RSA-SSA-PSS, and no other. It makes a verifier of the data of a public key exactly if they are a serialized key of version 0 that is acceptable: for ECDSA a point of P-256 with SHA-256, P-384 with SHA-384 or SHA-512, or P-521 with SHA-512, and signatures in DER or IEEE P1363; for Ed25519 32 bytes; for RSA a modulus of at least 2048 bits, an odd exponent between 65537 and 2^32-1, SHA-256, SHA-384 or SHA-512, and for PSS the same hash function twice and a salt length that is not negative. It makes a signer of the data of a private key exactly if the public part is acceptable and so is the private part: a scalar of the curve, 32 bytes, an RSA key that passes the checks of the library and signs a test message. It makes a private key for a key format exactly if the public part would be acceptable (and, for RSA, the library makes a key of this size); the new key data are ASYMMETRIC_PRIVATE, hold this key with the parameters asked for, and the public part is that of the private part. The data of the public key, which are ASYMMETRIC_PUBLIC and hold the public part, are handed out for every key that gives a signer, and there is a verifier for them. Violation: the salt length has no upper limit, and a key format with a salt that does not fit makes a key for which there is no signer; for new keys, this is the only case.", "quantifier": "all key data, key formats and randomness; for public parts of stored keys, keys below 2^31-1000 bytes", "why_tests_cant": "All parameters and sizes; wrong combinations are accepted only at particular ones.", "anchors": ["cc/signature/ecdsa_sign_key_manager.cc", "cc/signature/ecdsa_verify_key_manager.cc", "cc/signature/ed25519_sign_key_manager.cc", "cc/signature/ed25519_verify_key_manager.cc", "cc/signature/rsa_ssa_pkcs1_sign_key_manager.cc", "cc/signature/rsa_ssa_pkcs1_verify_key_manager.cc", "cc/signature/rsa_ssa_pss_sign_key_manager.cc", "cc/signature/rsa_ssa_pss_verify_key_manager.cc", "cc/core/private_key_manager_impl.h", "cc/signature/sig_util.cc", "python/tink/cc/cc_key_manager.h"]}
{"id": "C97", "title": "Signatures are those of the published algorithms, and are accepted with the public key", "statement": "The signer of a private key makes the signatures of the library for the digest of the data: for ECDSA the pair of numbers in DER, as short as possible, or as two numbers of the size of a field element; for Ed25519 of the data; for RSA PKCS1, or PSS with the salt length of the key. A verifier accepts exactly the valid signatures in the encoding of the key, none in another encoding. For a new key with a signer, everything can be signed, and the verifier of the public key accepts it; ECDSA and Ed25519 keys sign everything in any case. Signatures have the size of two field elements (IEEE P1363; with DER at most 9 bytes more), 64 bytes (Ed25519) or the size of the modulus. Violations: ECDSA and Ed25519 keys may have a public part that is not that of the private part; there is a signer for such a key, and its signatures are refused with the public key. A public RSA-SSA-PSS key whose salt does not fit has a verifier that refuses everything.", "quantifier": "all private and public keys, texts, signatures from anywhere, and randomness; what is assumed of BoringSSL is in LawfulSigSsl", "why_tests_cant": "All texts and signatures; alternative encodings are accepted only for particular ones.", "anchors": ["cc/subtle/ecdsa_sign_boringssl.cc", "cc/subtle/ecdsa_verify_boringssl.cc", "cc/signature/internal/ecdsa_raw_sign_boringssl.cc", "cc/subtle/ed25519_sign_boringssl.cc", "cc/subtle/ed25519_verify_boringssl.cc", "cc/subtle/rsa_ssa_pkcs1_sign_boringssl.cc", "cc/subtle/rsa_ssa_pkcs1_verify_boringssl.cc", "cc/subtle/rsa_ssa_pss_sign_boringssl.cc", "cc/subtle/rsa_ssa_pss_verify_boringssl.cc", "cc/internal/ec_util.cc", "cc/internal/rsa_util.cc"]}
{"id": "C98", "title": "What keysets of signature keys do, from Python down to BoringSSL", "statement": "In a process that has registered signatures, a keyset whose enabled keys are private signature keys gives a PublicKeySign exactly if it is valid and each enabled key has a known prefix type and holds an acceptable key (C96). sign returns the prefix of the primary key followed by that key's signature (C97) of the data, or for LEGACY keys of the data and a zero byte; if the key makes none, it raises TinkError. A keyset whose enabled keys are public signature keys gives a PublicKeyVerify exactly if it is valid and each enabled key has a known prefix type and holds an acceptable key; verify accepts exactly the signatures of more than 5 bytes that are, after the prefix of some enabled key, valid under this key, and otherwise raises TinkError. public_keyset_handle of a valid keyset of private keys succeeds exactly if every key, enabled or not, has a known status and prefix type and passes the weaker checks of C96; the public keyset has the same primary key id and, in order, for each key one with the same status, id and prefix type and the public part of the stored key; nothing in it is secret. If the public part of the primary key is that of its private part, whatever the private keyset signs is accepted with the public keyset. For every predefined template, a keyset can be generated (with RSA, if BoringSSL makes a key) and holds the key asked for; it signs everything, and its public keyset accepts that.", "quantifier": "all keysets of the signature key types (for public keysets: keys below 2^31-1000 bytes), all predefined templates, all data and signatures, and randomness", "why_tests_cant": "All keysets and templates; the composition of a dozen layers in two languages.", "anchors": ["python/tink/_keyset_handle.py:KeysetHandle.primitive", "python/tink/_keyset_handle.py:KeysetHandle.public_keyset_handle", "python/tink/core/_registry.py", "python/tink/signature/_signature_wrapper.py", "python/tink/signature/_signature_key_manager.py", "python/tink/signature/_signature_key_templates.py", "python/tink/cc/pybind", "cc/subtle", "cc/signature"]}
{"id": "C99", "title": "JWTs with signatures are those of RFC 7515 and RFC 7518, from Python down to BoringSSL", "statement": "After register_jwt_signature, and until the registry is reset, whatever else is registered before and after (as long as nothing else is registered for JWT signatures), a keyset gives a JwtPublicKeySign (JwtPublicKeyVerify) exactly if it is valid and each enabled key is TINK or RAW and holds a private (public) key of version 0 that is acceptable in the sense of C96, for one of the algorithms ES256, ES384, ES512 (P-256, P-384, P-521), RS256, RS384, RS512, PS256, PS384 and PS512; the algorithm determines hash functions, and for PSS the salt length. sign_and_encode makes header.payload.signature where the signature is that of the primary key, for the algorithm in the header, of header, dot and payload; for ECDSA two numbers of the size of a field element. verify_and_decode accepts a token exactly if, for an enabled key, the signature part is a valid signature of the first two parts under this public key, and header, payload, validator and clock are right for the key. public_keyset_handle of a valid keyset of private keys succeeds exactly if every key, enabled or not, has a known status and prefix type and passes the checks; the public keyset has, in order, for each key one with the same status, id, prefix type, algorithm and custom kid and the public part of the stored key; nothing in it is secret. If the public part of the primary key is that of its private part, whatever the private keyset signs is accepted with the public keyset, and with every other keyset that has the public key enabled, if the validator accepts it. A key is made of a template exactly if the algorithm is one of the nine and the key asked for would be acceptable (and, for RSA, BoringSSL makes a key); it is then the key asked for, and its parts belong together; otherwise TinkError is raised, as it is for templates of public keys. For each of the 22 predefined templates, a keyset can be generated (with RSA, if BoringSSL makes a key), and signs everything that can be written as JSON; its public keyset accepts that.", "quantifier": "all histories of registrations, keysets (for public keysets: keys below 2^31-1000 bytes), tokens, templates, validators, clocks and randomness; what is assumed of BoringSSL is in LawfulSigSsl", "why_tests_cant": "All keysets, tokens and histories; mismatched algorithms, curves or encodings are accepted only for particular ones.", "anchors": ["python/tink/jwt/_jwt_signature_key_manager.py", "python/tink/jwt/_jwt_signature_wrappers.py", "python/tink/jwt/_jwt_key_templates.py", "python/tink/jwt/__init__.py:register_jwt_signature", "cc/jwt/internal/raw_jwt_ecdsa_sign_key_manager.cc", "cc/jwt/internal/raw_jwt_ecdsa_verify_key_manager.cc", "cc/jwt/internal/raw_jwt_rsa_ssa_pkcs1_sign_key_manager.cc", "cc/jwt/internal/raw_jwt_rsa_ssa_pkcs1_verify_key_manager.cc", "cc/jwt/internal/raw_jwt_rsa_ssa_pss_sign_key_manager.cc", "cc/jwt/internal/raw_jwt_rsa_ssa_pss_verify_key_manager.cc"]}
{"id": "C100", "title": "Which hybrid encryption keys are accepted and made", "statement": "C++ has hybrid encryption and decryption for the key types ECIES-AEAD-HKDF and HPKE, and no other. It makes a primitive of the data of a public key exactly if they are a serialized key of version 0 that is acceptable: for ECIES no parameter missing, a point of P-256, P-384 or P-521, or 32 bytes for X25519 without a second coordinate, a hash function and a point format that are not UNKNOWN, and a key template for the data encryption that can be read, for AES-GCM, AES-CTR-HMAC, XChaCha20-Poly1305 or AES-SIV; for HPKE the KEM X25519-HKDF-SHA256, HKDF-SHA256, an AEAD that is not UNKNOWN, and a public key that is not empty. For the data of a private key the public part needs these parameters and (ECIES) coordinates, and the private part has 32 bytes for ECIES with X25519 and otherwise is not empty. It makes a private key for a key format exactly if the parameters are complete and none is UNKNOWN, and there are keys for the curve or KEM; the new key data are ASYMMETRIC_PRIVATE and hold the key asked for; if there is a primitive for them, the public part is acceptable and that of the private part; and there is one, if the algorithms work together. The data of the public key, which are ASYMMETRIC_PUBLIC and hold the public part, are handed out exactly if the parameters are complete and none is UNKNOWN. Violation: key formats are accepted with data encryption that is not supported (such as AES-EAX) and with KEMs that are not (NIST curves with HPKE); there is no primitive for the keys made.", "quantifier": "all key data, key formats and randomness; for what new and public key data hold, keys below 2^31-1000 bytes", "why_tests_cant": "All parameters and sizes; wrong combinations are accepted only at particular ones.", "anchors": ["cc/hybrid/ecies_aead_hkdf_private_key_manager.cc", "cc/hybrid/ecies_aead_hkdf_private_key_manager.h", "cc/hybrid/ecies_aead_hkdf_public_key_manager.cc", "cc/hybrid/ecies_aead_hkdf_public_key_manager.h", "cc/hybrid/internal/hpke_private_key_manager.cc", "cc/hybrid/internal/hpke_public_key_manager.cc", "cc/hybrid/ecies_aead_hkdf_hybrid_encrypt.cc", "cc/hybrid/ecies_aead_hkdf_hybrid_decrypt.cc", "cc/hybrid/ecies_aead_hkdf_dem_helper.cc", "cc/core/private_key_manager_impl.h", "python/tink/cc/cc_key_manager.h"]}
{"id": "C101", "title": "Hybrid ciphertexts are those of ECIES and HPKE, and are decrypted with the private key", "statement": "With an ECIES public key, a ciphertext is the encoding of an ephemeral public key (a point of the curve in the format of SEC 1 that the key prescribes, or an X25519 key) followed by a ciphertext in the sense of C91, without associated data, under the key that HKDF (RFC 5869) with the salt of the key and the context info as info derives from that encoding and the shared secret; with an HPKE key, it is the encapsulated key followed by what RFC 9180 gives in base mode. The primitive of a private key decrypts exactly the ciphertexts of this kind for the stored key and the same context info, whoever made them, each to its text. If public and private part belong together, whatever is encrypted is decrypted again. If, too, the algorithms work together (sizes of the data encryption as in C89, a known hash function, enough HKDF output, compressed format for X25519, a known AEAD for HPKE), every text below 2 GiB is encrypted; this is the case for every new key with such algorithms. Otherwise nothing is encrypted and nothing decrypted. Ciphertexts are longer than the text by a number of bytes that the key determines. Encryption and decryption return a result or a status. Violations: keys with algorithms that do not work together are made and accepted, and refuse everything only when used; keys whose parts do not belong together are accepted; if the sizes of AES-CTR and HMAC key add up to 2^32 or more, std::out_of_range may be thrown; and encryption with an X25519 key of low order (such as 32 zeros) ends the process.", "quantifier": "all keys of the types of C100, texts, context infos, ciphertexts from anywhere, and randomness; what is assumed of BoringSSL is in LawfulHyb", "why_tests_cant": "All texts, ciphertexts and parameters; a round trip does not notice a deviation that both sides share, and alternative encodings are accepted only for particular ones.", "anchors": ["cc/hybrid/ecies_aead_hkdf_hybrid_encrypt.cc", "cc/hybrid/ecies_aead_hkdf_hybrid_decrypt.cc", "cc/hybrid/ecies_aead_hkdf_dem_helper.cc", "cc/subtle/ecies_hkdf_sender_kem_boringssl.cc", "cc/subtle/ecies_hkdf_recipient_kem_boringssl.cc", "cc/subtle/hkdf.cc", "cc/internal/ec_util.cc", "cc/hybrid/internal/hpke_encrypt.cc", "cc/hybrid/internal/hpke_decrypt.cc", "cc/hybrid/internal/hpke_context_boringssl.cc"]}
{"id": "C102", "title": "What keysets of hybrid encryption keys do, from Python down to BoringSSL", "statement": "In a process that has registered hybrid encryption, a keyset whose enabled keys are public hybrid keys gives a HybridEncrypt exactly if it is valid and each enabled key has a known prefix type and holds an acceptable key (C100). encrypt returns the prefix of the primary key followed by a ciphertext (C101) of this key for the text and the context info; if there is none, or no enabled primary key, it raises TinkError. A keyset whose enabled keys are private hybrid keys gives a HybridDecrypt exactly if it is valid and each enabled key has a known prefix type and holds an acceptable key; decrypt returns the text of the first enabled key, in the order of the keyset but RAW keys last, for which the ciphertext is, after the prefix of the key, one in the sense of C101 with this context info; if there is no such key, it raises TinkError. public_keyset_handle of a valid keyset of private keys succeeds exactly if every key, enabled or not, has a known status and prefix type and complete parameters none of which is UNKNOWN; the public keyset is valid, has the same primary key id and, in order, for each key one with the same status, id and prefix type and the public part of the stored key; nothing in it is secret. If the public part of the primary key is that of its private part, whatever the public keyset encrypts the private keyset decrypts, unless another enabled key takes the ciphertext for its own. For every predefined template, a keyset can be generated and holds the key asked for; its public keyset encrypts everything below 2 GiB, and it decrypts that.", "quantifier": "all keysets of the hybrid key types (for public keysets: keys below 2^31-1000 bytes), all predefined templates, all texts, context infos and ciphertexts, and randomness; that errors are TinkErrors is not claimed where C101 says that the process ends or std::out_of_range is thrown", "why_tests_cant": "All keysets and templates; the composition of a dozen layers in two languages.", "anchors": ["python/tink/_keyset_handle.py:KeysetHandle.primitive", "python/tink/_keyset_handle.py:KeysetHandle.public_keyset_handle", "python/tink/core/_registry.py", "python/tink/hybrid/_hybrid_wrapper.py", "python/tink/hybrid/_hybrid_key_manager.py", "python/tink/hybrid/_hybrid_key_templates.py", "python/tink/cc/pybind", "cc/subtle", "cc/hybrid"]}
{"id": "C103", "title": "The introductory example programs run to their end", "statement": "Each of aead_basic.py, deterministic_aead_basic.py, mac_basic.py, signature_basic.py and hybrid_basic.py, started in a new process, registers its package, reads the keysets that are written out in it, and uses them, without an exception: what is encrypted is decrypted again to the same text, the tag is accepted, and the signature is accepted both with the public keyset that is written out and with the one computed from the private keyset. In particular, the keysets that are written out are well-formed, hold acceptable keys, and public and private keys belong together.", "quantifier": "all randomness; all libraries with the C++ key managers of C89, C96 and C100, in which the public keys of P-256 and X25519 are those of FIPS 186-4 and RFC 7748; all limits of the JSON parser that are not below what these texts need", "why_tests_cant": "The programs are tested only with the randomness of the day, and with one implementation of the curves.", "anchors": ["python/examples/aead/aead_basic.py:example", "python/examples/deterministic_aead/deterministic_aead_basic.py:example", "python/examples/mac/mac_basic.py:example", "python/examples/signature/signature_basic.py:example", "python/examples/hybrid/hybrid_basic.py:example"]}
{"id": "C104", "title": "What envelope encryption does, from Python down to the block cipher", "statement": "In a process that has registered the AEAD package, KmsEnvelopeAead can be constructed with a template exactly if the template asks for an AEAD key (AES-GCM, AES-GCM-SIV, AES-EAX, AES-CTR-HMAC or XChaCha20-Poly1305) that is strong enough (C89), as each predefined AEAD template does; otherwise TinkError is raised. Once it is constructed, encrypt never fails for a text below 2 GiB, unless the remote AEAD raises an exception, which is passed on, or returns 4 GiB or more (struct.error): it makes a new random key of the sizes that the template prescribes, has the remote AEAD encrypt the stored form of that key with empty associated data, and returns the length of the result in 4 bytes, the result, and the ciphertext of the text under the new key, in the sense of C91, with a random nonce. decrypt returns a text exactly if the input is a length, so many bytes, and a body; the remote AEAD decrypts these bytes to the stored form of a key of the template's type that is strong enough; and the body is a ciphertext in the sense of C91 of that text under this key, for these associated data. Otherwise it raises TinkError, or the exception of the remote AEAD. Whatever is encrypted is decrypted again, also by another object with a template of the same key type, at any later time, if the remote AEAD then undoes what it did. Note: decryption depends on the key type of the template only; its key size and parameters are not compared with those of the key.", "quantifier": "all templates that ask for less than 2^31-1000 bytes of key material, all remote AEADs with any state (for decryption: that return less than 2^31-500 bytes), texts below 2 GiB, ciphertexts from anywhere, randomness; what is assumed of BoringSSL is in LawfulSsl", "why_tests_cant": "All templates, servers and ciphertexts; tests use one server that behaves and a few templates.", "anchors": ["python/tink/aead/_kms_envelope_aead.py:KmsEnvelopeAead", "python/tink/core/_registry.py", "python/tink/aead/_aead_key_manager.py", "python/tink/cc/pybind", "cc/subtle", "cc/aead"]}
{"id": "C105", "title": "What the fake primitives for tests do", "statement": "A fake MAC (and signature) of data is the data, '|' and the name; a fake MAC accepts exactly the tags it computes, and fakes whose names differ and contain no '|' do not accept each other's tags. A fake AEAD, deterministic AEAD or hybrid encryption gives the text, '|', the associated data, '|' and the name; decryption returns a text exactly if the ciphertext begins with that text, the associated data and the name, separated by '|', then ends or goes on with '|', and none of the three contains '|'. So decryption undoes encryption exactly if there is no '|' in the text, the associated data and the name. A fake PRF gives exactly as many bytes as asked for, up to 32, shorter outputs are prefixes of longer ones, and more than 32 is a TinkError; the primary PRF of a fake PRF set is the one with the primary id. A keyset with a fake key as its primary key is valid exactly if the prefix type is known and the key is enabled (or public, with known status and not destroyed). The test data are looked for in TINK_PYTHON_ROOT_PATH if that is set, and only otherwise in TEST_SRCDIR. Violations: with their default names, FakePublicKeyVerify rejects every signature of FakePublicKeySign; what is encrypted may be decrypted to another text; what is refused raises TinkError only if it is valid UTF-8, and otherwise UnicodeDecodeError, which in a keyset ends the search although a later key would decrypt; a negative output length is not refused by the fake PRF.", "quantifier": "all names that can be encoded, texts, associated data, ciphertexts, tags, lengths, keys and environments", "why_tests_cant": "All texts and ciphertexts; the tests that use the fakes use ASCII texts without '|'.", "anchors": ["python/tink/testing/helper.py"]}
{"id": "C106", "title": "The credentials used for a key in AWS KMS or GCP KMS are those of the first matching registration", "statement": "An `AwsKmsClient` is made exactly when the key URI is absent, empty or well formed and either no credentials path is given or the file has both `aws_access_key_id` and `aws_secret_access_key` in its section `default`. A bad key URI is a TinkError whatever the file; what is missing in the file is a ValueError; exceptions of reading the file are passed on. A `GcpKmsClient` is made exactly when the key URI is absent, empty or has the scheme and the Google library accepts the credentials (the default ones if there is no path); its exceptions are passed on. The AEAD that `get_aead` gives for an AWS key uses the credentials of the client and the region in the key URI. `register_client` appends the client to the process-wide list, or passes on the exception and leaves the list as it is. After any history of registrations and resets, the AEAD found for a key uses the credentials of the first call since the last reset that succeeded and whose URI is absent, empty or that of the key: later registrations of the same key with other credentials have no effect, nor have failed ones and those of the other cloud. If there is no such call, `kms_client_from_uri` raises TinkError.", "quantifier": "all key URIs, credential paths, contents of credential files (which may change between calls), behaviours of the Google and AWS libraries, and histories of register_client and reset calls", "why_tests_cant": "Tests register one client with one file; which of several registrations, some failed, is the one used depends on the whole history.", "anchors": ["python/tink/integration/awskms/_aws_kms_client.py:_parse_config", "python/tink/integration/awskms/_aws_kms_client.py:AwsKmsClient", "python/tink/integration/gcpkms/_gcp_kms_client.py:GcpKmsClient", "python/tink/_kms_clients.py:kms_client_from_uri"]}
{"id": "C107", "title": "The streams for tests deliver and keep what they were given", "statement": "After any calls of `write` and `close` on a `BytesIOWithValueAfterClose`, `value_after_close` gives exactly what was written before the first `close`, written over the initial bytes; without a `close` it raises ValueError. As a destination of an encrypting stream it accepts all that it is given. A `SlowBytesIO` delivers its data in order, without loss, at most as much as asked for, and `b''` only at the end; with reads of five bytes or more, every third read, beginning with the first, is blocked and the others deliver five bytes each up to the end, for up to ten million and one reads. Later reads raise AssertionError, so that no more than 33333335 bytes can be read in this way. A `SlowReadableRawBytes` does the same with None for BlockingIOError, if five bytes or more are asked for; if fewer are, it may return more than asked for (or, with newer versions of Python, raise ValueError and lose bytes).", "quantifier": "all data, all sequences of writes and closes, and all sequences of read sizes", "why_tests_cant": "The streams are what the tests of streaming encryption rest on; tests of the streams themselves cover some sizes of reads and data.", "anchors": ["python/tink/testing/bytes_io.py:BytesIOWithValueAfterClose", "python/tink/testing/bytes_io.py:SlowBytesIO", "python/tink/testing/bytes_io.py:SlowReadableRawBytes"]}
{"id": "C108", "title": "The example program for encrypted keysets does to files what it says, with the key only as the KMS has encrypted it", "statement": "encrypted_keyset_cli in the mode generate opens the keyset file when the key URI and the credentials give a KMS key and a keyset can be made; it then writes the JSON text of the keyset encrypted by the server and its public information, and exits with 0, exactly if the server encrypts it and at once decrypts it to the same keyset (and the file could be written); no other file changes. Two runs with the same public information and the same ciphertext from the server leave the same file, whatever the keys are. In the modes encrypt and decrypt it exits with 0 exactly if the KMS key is found, the keyset file is an encrypted keyset that the server decrypts to a keyset with an AEAD, the AEAD's operation on the input file succeeds and the result could be written; then the output file holds the result. Otherwise the status is 1 and no file changed, unless the disk refused it half-way. So generating, encrypting and decrypting in three processes restores the file, if the server decrypts what it has encrypted. Violation: the keyset file is opened before the server is asked, so that a refusal of the server leaves an existing keyset file empty; and the associated data for the server is a str, so that with a Google library that takes no str for bytes no keyset is ever generated, and every attempt empties the file.", "quantifier": "all contents of files and flags, keys, random numbers, file systems in which some files cannot be read or written completely, KMS servers with any state that refuse, fail or answer wrongly, conversions of the str by the Google library, and triples of runs", "why_tests_cant": "a test runs the program with one file and a server that works; here every step can fail, and what is left of the files then is determined", "anchors": ["python/examples/encrypted_keyset/encrypted_keyset_cli.py:main", "python/tink/_keyset_handle.py:_encrypt", "python/tink/_keyset_handle.py:_decrypt", "python/tink/_json_proto_keyset_format.py:serialize_encrypted", "python/tink/_json_proto_keyset_format.py:parse_encrypted", "python/tink/integration/gcpkms/_gcp_kms_client.py:_GcpKmsAead"]}
{"id": "C109", "title": "Rotating the keys of a keyset keeps what was made before usable until its key is revoked, for every kind of primitive", "statement": "Take a keyset handle, make a builder of it, call add_new_key, set_primary_key, enable_key, disable_key and delete_key any number of times in any order (calls may fail), and take the builder's handle. Every key of the new keyset is a key of the old one, up to its status, or was made from a template in one of the calls. An enabled key with an id of its own (not 0) that no call disabled or deleted is in the new keyset, unchanged, and is still the only one with its id. If both keysets give a primitive of their kind, what the old primary key made is accepted by the new one as long as no call disabled or deleted that key (for decryption and PRFs its id must be its own and not 0; private keys must hold the public part that belongs to them): ciphertexts decrypt to the plaintext (AEAD, deterministic AEAD, hybrid encryption; for RAW keys provided that no other key opens the ciphertext differently), tags and signatures are accepted, JWTs are if the validator accepts what is in them, and the PRFs of all enabled keys that were spared compute the same. Signatures are verified with the public keyset of the new keyset, hybrid ciphertexts come from the public keyset of the old one. What was written to an encrypting stream that was closed is read from a decrypting stream of the new keyset like from a file, provided that each other enabled key refuses the ciphertext or decrypts it to the same; it refuses it, whatever the keys are, if its derived keys have another size, and otherwise if the first segment does not pass with it (see C67). Once a key with an id of its own (not 0) has been disabled or deleted, and is not enabled again and its id not drawn again, nothing with its prefix (for JWT: naming its kid) is accepted, unless a RAW key accepts it, and a PRF set has no PRF with its id. A decrypting stream then delivers only what the other enabled keys deliver. If all keys could be used (in keysets of symmetric keys, apart from keys, such as destroyed ones, that are not enabled and that no call enables) and new keys come from predefined templates (except for PRFs and JWT, also from what raw_template and legacy_template make of them), the new keyset can be used again (also to make streams), and so can its public keyset. The bytes of a builder's public keyset hold no secret and parse to the public keyset.", "quantifier": "all keysets, histories of builder calls of any length, including calls that fail, draws of key ids, keys and algorithms of the modelled key managers, plaintexts, associated data, messages, tokens, validators, and ciphertexts, tags, signatures or tokens made by anyone", "why_tests_cant": "a test rotates one keyset along one history; that no history loses a key that is still needed, or keeps one alive that was revoked, concerns all histories together with the algorithms and the lookup by prefix", "anchors": ["python/tink/testing/keyset_builder.py:KeysetBuilder", "python/tink/testing/keyset_builder.py:from_keyset_handle", "python/tink/_keyset_handle.py:KeysetHandle", "python/tink/core/_primitive_set.py:PrimitiveSet", "python/tink/aead/_aead_wrapper.py:_WrappedAead", "python/tink/daead/_deterministic_aead_wrapper.py:_WrappedDeterministicAead", "python/tink/streaming_aead/_streaming_aead_wrapper.py:_WrappedStreamingAead", "python/tink/mac/_mac_wrapper.py:_WrappedMac", "python/tink/prf/_prf_set_wrapper.py:_WrappedPrfSet", "python/tink/signature/_signature_wrapper.py:_WrappedPublicKeyVerify", "python/tink/hybrid/_hybrid_wrapper.py:_WrappedHybridDecrypt", "python/tink/jwt/_jwt_mac_wrapper.py:_WrappedJwtMac", "python/tink/jwt/_jwt_signature_wrappers.py:_WrappedJwtPublicKeyVerify"]}
{"id": "C110", "title": "Packaging: the source distribution is tied to one archive of the C++ library, and stays so wherever it is built", "statement": "Patching the Bazel workspace replaces every local rule for the C++ library by a rule for the archive of the tagged version in the environment (of master if there is none), adds one line after the first that makes the new rule known unless it is there, and changes nothing else, provided that the first line is not part of a local rule and the version has no line breaks. A patched workspace is left as it is by any number of further runs, in whatever environments. The variable with the path of a local copy, which the documentation says takes precedence, is ignored. If the version cannot be encoded the run fails and leaves an empty workspace, which the next run takes without complaint. The version of the package is that of the first line of VERSION that begins with the label, if that line has the form label = \"version\" and the version has no line feeds, spaces or quotes; there is a ValueError just if no line begins with the label. The requirements are the lines of the file that are neither blank nor begin with #, in order, without white space at their ends. If generating the protocol buffers succeeds, every source has an output that is not older than it, provided that the compiler, when it succeeds, writes that output and nothing else; if all outputs are newer the compiler is not run, and if a source is missing the loop fails.", "quantifier": "all texts of the workspace, the version file and the requirements, environments, sequences of runs, paths and states of the file system, source names that end in .proto and have it nowhere else, and compilers", "why_tests_cant": "a test patches one workspace in one environment; that a later run in another environment cannot retarget a release concerns all texts and sequences of runs", "anchors": ["python/setup.py:_patch_workspace", "python/setup.py:_patch_with_http_archive", "python/setup.py:_get_tink_version", "python/setup.py:_parse_requirements", "python/setup.py:_generate_proto", "python/setup.py:SdistCmd", "python/setup.py:BuildBazelExtension", "python/setup.py:main"]}
{"id": "C111", "title": "JWT key rotation: whoever verifies with the published JWK set keeps up with the keyset", "statement": "A keyset for JWT signatures is rotated with a keyset builder, its public keyset is exported as a JWK set, and another process imports it. This succeeds and gives a JwtPublicKeyVerify, if all keys can be used and are not too big, new keys are made of predefined templates, and the numbers drawn for key ids are different often enough. It accepts exactly the tokens that are right for an enabled key of the public keyset, where the kid of the key may be missing from the header, in terms of the algorithms of RFC 7518 and the keys that are stored, down to BoringSSL. So it accepts every token that was signed before the rotation with a primary key that has been neither disabled nor deleted since, if the validator accepts it. If the key has been disabled or deleted and not enabled again, a token that names its kid is accepted only if it is right for a RAW key. Violation: a public key of a version that Tink does not know, which cannot be used for verifying, can be used after export and import.", "quantifier": "all keysets for JWT signatures, sequences of calls of keyset builders, tokens, validators, times, random choices and registries of the two processes", "why_tests_cant": "the claim joins key generation, rotation, public keysets, export, import and verification for all keysets and histories; a test follows one keyset through one rotation", "anchors": ["python/tink/jwt/_jwk_set_converter.py:from_public_keyset_handle", "python/tink/jwt/_jwk_set_converter.py:to_public_keyset_handle", "python/tink/testing/keyset_builder.py:KeysetBuilder", "python/tink/_keyset_handle.py:public_keyset_handle", "python/tink/jwt/_jwt_signature_wrappers.py", "cc/jwt/internal/raw_jwt_ecdsa_verify_key_manager.cc", "cc/jwt/internal/raw_jwt_rsa_ssa_pkcs1_verify_key_manager.cc", "cc/jwt/internal/raw_jwt_rsa_ssa_pss_verify_key_manager.cc"]}
{"id": "C112", "title": "The registry used by several threads", "statement": "Threads use the registry at the same time, and may be interrupted at any point. A call that is not interrupted does what it does without threads. A lookup returns a manager that was registered for the type URL and supports it, with a permission that was given for it, or a wrapper that was registered for the class and passed the check, also if the registry is reset meanwhile. A call that raises, and a lookup, leave no trace for other threads. Every call ends after a bounded number of steps of its own. If nobody resets the registry: after a registration has succeeded, something stays registered for the type URL or class, and every lookup that starts later succeeds; if all who register for a type URL or class agree on the type, class and permission and pass the checks, no registration fails, so that all threads may set up Tink; and a manager that is registered while no registration for its type URL is under way stays registered, and stays forbidden to make new keys if it was. Violations, if registrations overlap: two managers, or two wrappers, of different types can both be registered successfully, the second replacing the first; new keys can become allowed again after they were forbidden; and a lookup during a reset can raise KeyError instead of TinkError.", "quantifier": "all schedules of any number of threads that register managers and wrappers, look them up and reset the registry, from every state of the registry", "why_tests_cant": "a test runs a few schedules and cannot choose where threads are interrupted; the violations need an interruption between two bytecodes", "anchors": ["python/tink/core/_registry.py:Registry", "python/tink/core/_registry.py:Registry.register_key_manager", "python/tink/core/_registry.py:Registry.register_primitive_wrapper", "python/tink/core/_registry.py:Registry.reset"]}
{"id": "C113", "title": "The list of KMS clients used by several threads", "statement": "Threads register KMS clients and look for the client of a key URI at the same time, and may be interrupted at any point. A client that kms_client_from_uri returns was registered and supports the URI, also if the list is reset meanwhile. If nobody resets the list, what a call returns or raises is what it would return or raise if it was made in one go at some moment after its start; and once a client is the first that supports a URI, it stays so, and every call that starts later returns it. While nobody registers clients, a call ends after at most one step more than there are clients; threads that keep registering clients can keep it from ending. Violation: if the list is reset meanwhile, a call can return a client that was never the first that supports the URI.", "quantifier": "all schedules of any number of threads that register clients, look for clients and reset the list, from every list of clients", "why_tests_cant": "a test runs a few schedules and cannot choose where threads are interrupted", "anchors": ["python/tink/_kms_clients.py:register_kms_client", "python/tink/_kms_clients.py:kms_client_from_uri", "python/tink/_kms_clients.py:reset_kms_clients"]}
{"id": "C114", "title": "Several threads may set up Tink at the same time", "statement": "Starting from an empty registry, any number of threads run register() of the packages aead, daead, hybrid, mac, prf, signature and streaming_aead or tink_config.register() at the same time, look up managers and wrappers, and register key managers and wrappers of their own for other key types and classes; nobody resets the registry. No thread's register() fails. Once every registration that register() of a package makes has been finished by some thread, all key types and primitives of the package can be used from then on, with Tink's managers and wrappers and with new keys allowed, while other threads still register the same; and every lookup that starts later finds Tink's manager or wrapper. The same holds of register_jwt_mac() and register_jwt_signature().", "quantifier": "all schedules of any number of threads that register packages, look up managers and wrappers, and register others for other key types and classes; all C++ libraries that have the key managers of these key types", "why_tests_cant": "a test runs a few schedules and cannot choose where threads are interrupted", "anchors": ["python/tink/tink_config.py:register", "python/tink/aead/_aead_key_manager.py:register", "python/tink/core/_registry.py:Registry.register_key_manager", "python/tink/core/_registry.py:Registry.register_primitive_wrapper"]}
