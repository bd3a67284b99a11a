{"id": "C01", "title": "SRP: honest client and server derive the same key and accept each other", "statement": "If a user registers with the verifier returned by SrpClient::compute_verifier, and later a client and a server exchange compute_public_ephemeral values unmodified with the same username, password and salt, then whenever the client's process_reply succeeds the server's also succeeds, both key() values are byte-for-byte equal, verify_client accepts the client's proof() and verify_server accepts the server's proof(). The client's process_reply fails only when the server's public value is divisible by N.", "quantifier": "every digest, every group with N>1 and g coprime to N (no primality needed), every username, password, salt, and every pair of secret ephemerals of any length", "why_tests_cant": "one test run fixes one random a, b, salt; agreement is an algebraic identity over all exponents, including those where B - k*g^x wraps below zero", "anchors": ["srp/src/client.rs: SrpClient::process_reply, compute_premaster_secret, compute_verifier, compute_public_ephemeral", "srp/src/server.rs: SrpServer::process_reply, compute_premaster_secret, compute_b_pub", "srp/src/utils.rs"]}
{"id": "C02", "title": "SRP: degenerate public values are rejected exactly when divisible by N", "statement": "SrpServer::process_reply returns IllegalParameter(\"a_pub\") exactly when the received a_pub, read as a big-endian integer, is a multiple of N (0, N, 2N, ...); SrpClient::process_reply returns IllegalParameter(\"b_pub\") exactly when b_pub is a multiple of N. No other input makes either function return an error.", "quantifier": "every byte string of every length received as a public value, every group with N>0, every other argument", "why_tests_cant": "the tests only try the single encoding of zero; multiples of N, leading zero bytes and values far above N are unbounded", "anchors": ["srp/src/client.rs: process_reply", "srp/src/server.rs: process_reply", "srp/tests/bad_public.rs"]}
{"id": "C03", "title": "SRP: proof verification accepts exactly the one correct proof", "statement": "verify_client(reply) is Ok exactly when reply equals the proof() of a client holding the same transcript and key, and verify_server(reply) is Ok exactly when reply equals proof() of the matching server; any other byte string - shorter, longer, a prefix, one flipped bit - yields BadRecordMac.", "quantifier": "every reply byte string of every length and every verifier state", "why_tests_cant": "comparison goes through a constant-time length-dependent primitive; truncations and extensions are infinitely many", "anchors": ["srp/src/client.rs: verify_server", "srp/src/server.rs: verify_client"]}
{"id": "C04", "title": "SRP: acceptance implies key agreement (or an explicit hash collision)", "statement": "If both sides saw the same public values and the server's verify_client accepts the client's proof, then both sides hold the same key() and then the client's verify_server accepts the server's proof - unless two explicitly named different inputs collide under the digest. The same holds from the client's side.", "quantifier": "every digest, every pair of client and server states, arbitrary (also wrong) passwords, salts, verifiers and ephemerals", "why_tests_cant": "a test with one wrong password cannot show that no other mismatched state is accepted", "anchors": ["srp/src/utils.rs: compute_m1, compute_m2", "srp/src/client.rs: process_reply, verify_server", "srp/src/server.rs: process_reply, verify_client"]}
{"id": "C05", "title": "SRP: leading zero bytes never change an outcome", "statement": "Prepending zero bytes to a, b, v, a_pub or b_pub (a padded or fixed-width transport encoding) changes neither the error verdict nor the key, proof or verification result of process_reply on either side.", "quantifier": "every number of prepended zero bytes on every integer argument, every input", "why_tests_cant": "leading zeros occur with probability 1/256 per byte in random tests and every amount of padding must be covered", "anchors": ["srp/src/client.rs: process_reply, compute_public_ephemeral", "srp/src/server.rs: process_reply, compute_public_ephemeral"]}
{"id": "C06", "title": "SRP: no call panics for a sane group, and the panicking groups are exactly characterised", "statement": "For every group with N>0 whose generator is not longer in bytes than N, none of the public SRP functions panics, whatever bytes are passed. A group with N=0, or with a generator longer than N, panics (division by zero, slice underflow). All seven built-in groups are in the safe class.", "quantifier": "every group, every argument byte string", "why_tests_cant": "panics on adversarial sizes (big-integer subtraction below zero, slice arithmetic) are reached only by inputs a test does not choose", "anchors": ["srp/src/utils.rs: compute_k", "srp/src/client.rs: compute_premaster_secret", "srp/src/server.rs", "srp/src/groups.rs"]}
{"id": "C07", "title": "SRP: values on the wire follow the published formulas", "statement": "x = H(salt | H(username | ':' | password)), v = g^x mod N, k = H(N | PAD(g)), A = g^a mod N, B = (k*v + g^b) mod N, M1 = H(A | B | K), M2 = H(A | M1 | K) with K the premaster secret and every integer in minimal big-endian form; the client secret is (B - k*g^x)^(a+u*x) mod N taken over the integers modulo N and the server secret is (A*v^u)^b mod N.", "quantifier": "every digest, group and argument", "why_tests_cant": "test vectors pin one 1024-bit SHA-1 exchange; two sides sharing a mistake would still agree with each other", "anchors": ["srp/src/client.rs", "srp/src/server.rs", "srp/src/utils.rs", "srp/tests/rfc5054.rs"]}
{"id": "C08", "title": "SRP: the scrambling parameter follows RFC 5054 padding", "statement": "u equals H(PAD(A) | PAD(B)) as RFC 5054 prescribes and as the comment above compute_u states, so the library interoperates with RFC 5054 peers in every session. (The code hashes unpadded encodings: true exactly when neither A nor B has a leading zero byte; false otherwise.)", "quantifier": "every pair of public values below N", "why_tests_cant": "A or B is short in about one session in 128, so a handful of runs never shows the divergence", "anchors": ["srp/src/utils.rs: compute_u", "srp/src/client.rs: process_reply", "srp/src/server.rs: process_reply"]}
{"id": "C09", "title": "SRP: proofs bind the public values", "statement": "A client proof accepted by a server commits to the pair (A, B) and key: equal proofs imply equal public values and equal key up to a digest collision. (Encodings are concatenated without lengths or padding: holds when the public values have the same byte length on both sides, fails in general.)", "quantifier": "every pair of transcripts", "why_tests_cant": "ambiguity of concatenation shows only on pairs of transcripts with different field lengths", "anchors": ["srp/src/utils.rs: compute_u, compute_m1, compute_m2"]}
{"id": "C10", "title": "SRP: distinct credentials are hashed distinctly", "statement": "Two different (username, password) pairs yield different private-key hash inputs, so a verifier registered for one pair is not a verifier for another unless the digest collides. (Holds when usernames contain no ':'; false in general since ':' is the separator.)", "quantifier": "every pair of usernames and passwords", "why_tests_cant": "needs two specially crafted usernames; random tests do not find them", "anchors": ["srp/src/client.rs: compute_identity_hash, compute_x, compute_verifier"]}
{"id": "C11", "title": "SRP: built-in group parameters are well formed", "statement": "Each of the seven built-in groups has the advertised bit length with top and bottom byte non-zero, N odd, N = 7 or 3 mod 8, 1 < g < N, g coprime to N, and g^((N-1)/2) = -1 mod N; consequently, if (N-1)/2 is prime then N is prime and g generates the whole multiplicative group.", "quantifier": "the seven groups; for the consequence, every exponent / every residue", "why_tests_cant": "tests use two of the seven groups and never check generator order", "anchors": ["srp/src/groups.rs: G_1024..G_8192", "srp/src/groups/*.bin"]}
{"id": "C12", "title": "SRP: honest public values are canonical and never rejected by the server", "statement": "compute_public_ephemeral on either side and compute_verifier return a minimal-length big-endian encoding of an integer below N; when g is coprime to N (all built-in groups), an honest client's public value is never zero, so the server never rejects an honest client.", "quantifier": "every exponent, every group with g coprime to N", "why_tests_cant": "quantifies over all exponents of all lengths", "anchors": ["srp/src/client.rs: compute_public_ephemeral, compute_verifier", "srp/src/server.rs: compute_public_ephemeral"]}
{"id": "C13", "title": "SRP: a zero scrambling parameter is refused", "statement": "As SRP-6a requires, an exchange whose scrambling parameter u is zero is aborted, because then the stolen verifier alone, without the password, suffices to log in. (The code has no such check: whenever u = 0 the server accepts a proof computed from the verifier only, and no error is returned on either side.)", "quantifier": "every digest and exchange with u = 0", "why_tests_cant": "u = 0 happens with probability 2^-160 or less", "anchors": ["srp/src/client.rs: process_reply", "srp/src/server.rs: process_reply", "srp/src/utils.rs: compute_u"]}
{"id": "C14", "title": "SRP: key() is a uniformly sized hashed session key", "statement": "As the crate documentation's table states (K = H(S)), key() returns the digest of the premaster secret, and so always has the digest's length. (The code returns the raw premaster secret in minimal encoding; its length varies.)", "quantifier": "every exchange", "why_tests_cant": "both sides agree on the raw secret, so agreement tests cannot notice", "anchors": ["srp/src/lib.rs: Algorithm description", "srp/src/client.rs: SrpClientVerifier::key", "srp/src/server.rs: SrpServerVerifier::key"]}
{"id": "C15", "title": "SRP: without the public-value check the key would be known to everyone", "statement": "For every multiple of N sent as the client's public value the server's premaster secret would be 0 for any password and any non-zero b, so the check in C02 is necessary; conversely for prime N and g, v not divisible by N an accepted public value never yields the premaster secret 0.", "quantifier": "every verifier, every ephemeral, every multiple of N; every accepted public value", "why_tests_cant": "universally quantified over secrets", "anchors": ["srp/src/server.rs: process_reply, compute_premaster_secret"]}
{"id": "C16", "title": "SPAKE2: the A side and the B side derive the same key", "statement": "If one side calls start_a and the other start_b with the same password and the same pair of identities and each passes the other's message to finish unmodified, both calls return Ok with the same 32-byte key.", "quantifier": "every password, identity pair and pair of random scalars, on the actual Ed25519 group with the crate's M, N constants", "why_tests_cant": "depends on M and N lying in the prime-order subgroup (scalar negation is modulo the subgroup order); a test samples two scalars", "anchors": ["spake2/src/lib.rs: Spake2::start_a, start_b, finish", "spake2/src/ed25519.rs"]}
{"id": "C17", "title": "SPAKE2: two symmetric sides derive the same key", "statement": "If both sides call start_symmetric with the same password and identity and exchange messages unmodified, both finish calls return Ok with the same 32-byte key, whichever message sorts first and even if the two messages are equal.", "quantifier": "every password, identity and pair of random scalars", "why_tests_cant": "message ordering is a coin flip in a test and equality never occurs", "anchors": ["spake2/src/lib.rs: start_symmetric, finish", "spake2/src/ed25519.rs: hash_symmetric"]}
{"id": "C18", "title": "SPAKE2: finish classifies every inbound message", "statement": "finish returns WrongLength exactly when the message is not 33 bytes; otherwise BadSide exactly when the first byte is not the opposite role's letter ('B' for A, 'A' for B, 'S' for symmetric); otherwise CorruptMessage exactly when the remaining 32 bytes are not a decodable curve point; otherwise Ok with a 32-byte key.", "quantifier": "every inbound byte string of any length, every state", "why_tests_cant": "2^264 messages of the right length alone", "anchors": ["spake2/src/lib.rs: finish", "spake2/src/error.rs"]}
{"id": "C19", "title": "SPAKE2: finish and start never panic on the Ed25519 group", "statement": "Neither the constructors nor finish can reach any of the assertions, unwraps, slice operations or copy_from_slice length checks in the crate's Ed25519 instantiation, whatever the peer sends.", "quantifier": "every password, identity, scalar, inbound byte string", "why_tests_cant": "a remote panic is a denial of service triggered by an input nobody thought to test", "anchors": ["spake2/src/lib.rs: finish", "spake2/src/ed25519.rs: hash_ab, hash_symmetric, const_m, const_n, const_s, ed25519_hash_to_scalar"]}
{"id": "C20", "title": "SPAKE2: the generic implementation works for every Group", "statement": "Spake2<G> with any lawful implementation of the public Group trait gives key agreement and never panics. (The transcript functions assume 32-byte elements: true when element encodings are 32 bytes long; finish panics for every valid message otherwise.)", "quantifier": "every lawful Group implementation", "why_tests_cant": "only one group exists in the tests", "anchors": ["spake2/src/group.rs: Group", "spake2/src/lib.rs: finish", "spake2/src/ed25519.rs: hash_ab, hash_symmetric"]}
{"id": "C21", "title": "SPAKE2: equal keys imply equal password, identities and messages (A/B)", "statement": "If two asymmetric sessions (any two roles, anywhere) produce the same key, then they used the same password, the same idA, the same idB, the same A-message, the same B-message and the same group element, or two explicitly named different inputs collide under SHA-256. In particular different passwords or swapped identities never yield the same key.", "quantifier": "every pair of sessions and inbound messages", "why_tests_cant": "a mismatch test tries one pair of passwords; binding must hold for all pairs and all field boundaries", "anchors": ["spake2/src/ed25519.rs: hash_ab", "spake2/src/lib.rs: finish"]}
{"id": "C22", "title": "SPAKE2: equal keys imply equal password, identity and message pair (symmetric)", "statement": "If two symmetric sessions produce the same key then they used the same password, the same identity, the same unordered pair of messages and the same group element, or SHA-256 collides explicitly; a symmetric session and an asymmetric session never share a key unless SHA-256 collides.", "quantifier": "every pair of sessions and inbound messages", "why_tests_cant": "needs all pairs of sessions, including cross-mode ones", "anchors": ["spake2/src/ed25519.rs: hash_symmetric, hash_ab", "spake2/src/lib.rs: finish"]}
{"id": "C23", "title": "SPAKE2: a modified message never leads to the same key", "statement": "Delivering any two different byte strings to the same session state, both accepted, yields different keys unless SHA-256 collides explicitly - including alternative encodings of the same curve point and points differing by a small-order component.", "quantifier": "every session, every pair of distinct accepted messages", "why_tests_cant": "man-in-the-middle modifications are unbounded; malleability hides in rare encodings", "anchors": ["spake2/src/lib.rs: finish", "spake2/src/ed25519.rs"]}
{"id": "C24", "title": "SPAKE2: role confusion is refused", "statement": "A message produced by start_a is refused with BadSide by an A session (including its own reflection) and by a symmetric session; likewise for every other non-matching pair of roles.", "quantifier": "every pair of non-matching roles, every password, identity and scalar", "why_tests_cant": "the test covers one of the six mismatching combinations with one scalar", "anchors": ["spake2/src/lib.rs: start_internal, finish", "spake2/tests/spake2.rs"]}
{"id": "C25", "title": "SPAKE2: reflecting a symmetric session's own message is detected", "statement": "finish refuses a session's own outbound message in symmetric mode as it does in A/B mode. (False: the reflected message is accepted and yields a key.)", "quantifier": "every password, identity and scalar", "why_tests_cant": "no test reflects a symmetric message", "anchors": ["spake2/src/lib.rs: finish"]}
{"id": "C26", "title": "SPAKE2: the outbound message reveals nothing about the password", "statement": "For every two passwords, the function from the random scalar to the outbound message takes exactly the same values the same number of times: each message that can be sent with one password is sent by exactly one scalar with any other password. So a message sent with a uniform scalar is distributed independently of the password.", "quantifier": "every pair of passwords, every message, all scalars modulo the subgroup order, all three modes", "why_tests_cant": "a statement about whole distributions", "anchors": ["spake2/src/lib.rs: start_internal", "spake2/src/ed25519.rs: const_m, const_n, const_s"]}
{"id": "C27", "title": "SPAKE2: blinding constants are valid and in the prime-order subgroup", "statement": "The three constants decode (so the unwraps cannot panic), re-encode to the bytes in the source, are pairwise distinct non-identity elements, and are annihilated by the subgroup order; hence multiplying by a scalar and by its negation cancels exactly.", "quantifier": "the three constants; for cancellation, every scalar", "why_tests_cant": "no test checks the order of the constants; a constant with a small-order component breaks agreement for 7/8 of passwords", "anchors": ["spake2/src/ed25519.rs: const_m, const_n, const_s, scalar_neg"]}
{"id": "C28", "title": "SPAKE2: password-to-scalar is the big-endian reduction of HKDF output", "statement": "The scalar derived from a password is the 48-byte HKDF-SHA256 output (salt empty, info 'SPAKE2 pw') read as a big-endian integer, modulo the group order - the interoperable definition used by python-spake2 - and the derivation never fails.", "quantifier": "every password of any length", "why_tests_cant": "the byte-reversal loop is checked by one vector only", "anchors": ["spake2/src/ed25519.rs: ed25519_hash_to_scalar"]}
{"id": "C29", "title": "SPAKE2: wire format and key schedule match the documented transcript", "statement": "An outbound message is the side letter followed by the 32-byte encoding of B*x + (M|N|S)*pw; the key is SHA256(SHA256(pw) | SHA256(idA) | SHA256(idB) | X_msg | Y_msg | K) respectively SHA256(SHA256(pw) | SHA256(idS) | sorted messages | K), messages without the side byte, K the encoding of the shared element.", "quantifier": "every input", "why_tests_cant": "two implementations sharing a mistake agree with each other", "anchors": ["spake2/src/lib.rs: start_internal, finish", "spake2/src/ed25519.rs: hash_ab, hash_symmetric"]}
{"id": "C30", "title": "SPAKE2: Debug output never exposes secrets and shows identities unambiguously", "statement": "Formatting a session with {:?} or {:#?} depends only on the side and identities, never on the password, the scalars or the message. It tells the side, the identity of a symmetric session if that is UTF-8, and both identities of other sessions if they are UTF-8 and the first has no closing parenthesis. Identities that are not UTF-8 are printed as unambiguous hex. (The last part is false: bytes are printed without zero padding; pairs of identities are not escaped either.)", "quantifier": "every pair of sessions; every pair of identities", "why_tests_cant": "needs all pairs of states", "anchors": ["spake2/src/lib.rs: Debug for Spake2, Side, MaybeUtf8"]}
{"id": "C31", "title": "SPAKE2: degenerate peer elements are refused", "statement": "finish refuses a peer element that forces the shared element to be the identity, so that both parties always contribute to the key. (False: such a message is accepted; the shared element is then a constant known in advance.)", "quantifier": "every password and scalar", "why_tests_cant": "requires crafting the specific element for each password", "anchors": ["spake2/src/lib.rs: finish", "spake2/src/ed25519.rs: bytes_to_element"]}
{"id": "C32", "title": "AuCPace: honest client and server reach the same session key with explicit authentication", "statement": "After a registration whose data the server's database returns on lookup, a client using the same username and password and a server, exchanging all messages unmodified with the same channel identifier, either stop because one party drew a degenerate (zero) value, or both finish explicit mutual authentication with the same 64-byte session key. Holds for the plain and the partially augmented protocol, with nonce-based and pre-established SSIDs.", "quantifier": "every hash, password hasher, username, password, channel identifier, nonces and random scalars", "why_tests_cant": "each test run samples one set of random values and one user", "anchors": ["aucpace/src/client.rs", "aucpace/src/server.rs", "aucpace/src/utils.rs"]}
{"id": "C33", "title": "AuCPace: the strong variants reach the same session key", "statement": "The same as C32 for StrongAuCPace and for StrongAuCPace with partial augmentation: the blinding introduced by the client cancels, the client recovers exactly the salt used at registration, and both sides end with the same session key.", "quantifier": "every hash, password hasher, username, password, channel identifier, secret exponent, blinding value and random scalars", "why_tests_cant": "cancellation of the blinding must hold for every scalar", "anchors": ["aucpace/src/client.rs: register_strong, register_alloc_strong, start_augmentation_strong, StrongAuCPaceClientAugLayer", "aucpace/src/server.rs: generate_client_info_strong, generate_client_info_partial_strong"]}
{"id": "C34", "title": "AuCPace: implicit authentication gives the same key as explicit authentication", "statement": "implicit_auth on either side returns exactly the session key that the explicit authentication path would return from the same state and peer key, and honest peers using implicit_auth agree.", "quantifier": "every state and peer public key", "why_tests_cant": "two code paths must coincide on all inputs", "anchors": ["aucpace/src/client.rs: implicit_auth, receive_server_pubkey, receive_server_authenticator", "aucpace/src/server.rs: implicit_auth, receive_client_pubkey, receive_client_authenticator"]}
{"id": "C35", "title": "AuCPace: neutral points are refused at every entry", "statement": "Every API call that takes a point from the network (server's X, either party's CPace public key, the client's blinded point, the server's blinded salt) returns IllegalPointError when the point is the neutral element, and for the key calls only then. (False for the blinded salt in the fixed-buffer strong client, which accepts it; the heap variant refuses.)", "quantifier": "every state, every other argument", "why_tests_cant": "tests probe one state per call and miss the one call without the check", "anchors": ["aucpace/src/client.rs: generate_cpace, generate_cpace_alloc, receive_server_pubkey, implicit_auth", "aucpace/src/server.rs: receive_client_pubkey, implicit_auth, generate_prs_strong, lookup_failed_strong"]}
{"id": "C36", "title": "AuCPace: a server accepts only a client with the same SSID, channel identifier and password", "statement": "If a server run and a client run exchange public keys and the server accepts the client's authenticator, then both used the same SSID, the same channel identifier and the same password-related string, and hold the same session key - unless two explicitly named inputs collide under the hash (or under hash followed by map-to-point). The zero-scalar cases are excluded by the neutral-point checks.", "quantifier": "every pair of client and server runs, honest or mismatched in any parameter", "why_tests_cant": "quantifies over all mismatches of all parameters and all random values", "anchors": ["aucpace/src/server.rs: receive_client_authenticator, receive_client_pubkey", "aucpace/src/client.rs: receive_server_pubkey", "aucpace/src/utils.rs"]}
{"id": "C37", "title": "AuCPace: a client accepts only a server with the same SSID, channel identifier and password-related string", "statement": "The same as C36 with the roles exchanged: if the client accepts the server's authenticator, both hold the same session key and used the same SSID, channel identifier and password-related string, unless the hash collides explicitly.", "quantifier": "every pair of client and server runs", "why_tests_cant": "as C36", "anchors": ["aucpace/src/client.rs: receive_server_authenticator", "aucpace/src/server.rs: receive_client_authenticator"]}
{"id": "C38", "title": "AuCPace: a wrong password never authenticates", "statement": "If the server holds the verifier for one password and the client enters another, and the exchange is otherwise honest, then explicit authentication succeeds only if the two password hashes give the same scalar or the hash collides explicitly.", "quantifier": "every pair of passwords, every random value", "why_tests_cant": "one wrong password in a test says nothing about the others", "anchors": ["aucpace/src/client.rs: generate_cpace, generate_cpace_alloc", "aucpace/src/server.rs: generate_prs"]}
{"id": "C39", "title": "AuCPace: authenticators cannot be reflected and are separated from keys", "statement": "The server's authenticator, the client's authenticator and the session key of a session are pairwise different and none is accepted in place of another, unless the hash collides explicitly; the six hash roles never share an input.", "quantifier": "every session; every pair of inputs of different roles", "why_tests_cant": "needs all inputs", "anchors": ["aucpace/src/utils.rs: H0..H5, compute_authenticator_messages, compute_session_key"]}
{"id": "C40", "title": "AuCPace: authenticator checks accept exactly one value", "statement": "receive_client_authenticator and receive_server_authenticator succeed exactly on the one 64-byte authenticator of the session and otherwise return MutualAuthFail without a key.", "quantifier": "every 64-byte value and every state", "why_tests_cant": "2^512 values", "anchors": ["aucpace/src/client.rs: receive_server_authenticator", "aucpace/src/server.rs: receive_client_authenticator"]}
{"id": "C41", "title": "AuCPace: SSIDs bind both nonces; short pre-established SSIDs are refused", "statement": "Sessions with different (server nonce, client nonce) pairs have different SSIDs unless the hash collides explicitly, both sides compute the same SSID from the same pair, and begin_prestablished_ssid returns InsecureSsid exactly for SSIDs shorter than 16 bytes, on both sides.", "quantifier": "every nonce length and nonces; every SSID byte string", "why_tests_cant": "needs all nonce pairs and all lengths", "anchors": ["aucpace/src/utils.rs: compute_ssid", "aucpace/src/client.rs: agree_ssid, begin_prestablished_ssid", "aucpace/src/server.rs: agree_ssid, begin_prestablished_ssid", "aucpace/src/constants.rs"]}
{"id": "C42", "title": "AuCPace: fixed-buffer and heap variants behave the same", "statement": "For every buffer size that fits username + ':' + password, the fixed-buffer registration and login calls return exactly what the heap variants return; for smaller buffers they return UsernameOrPasswordTooLong and never panic. (For the strong login the two differ on a neutral blinded salt, see C35.)", "quantifier": "every buffer size, username, password, salt, params, hasher behaviour", "why_tests_cant": "the existing test compares one username and one buffer size", "anchors": ["aucpace/src/client.rs: hash_password, hash_password_alloc, register, register_alloc, generate_cpace, generate_cpace_alloc"]}
{"id": "C43", "title": "AuCPace: password hashes map to scalars by exact length rules", "statement": "A missing hash gives HashEmpty; 32- and 64-byte hashes are reduced little-endian modulo the group order; any other length gives HashSizeInvalid; errors of the password hasher are passed through; nothing panics.", "quantifier": "every password hasher output", "why_tests_cant": "tests use one hasher with one output length", "anchors": ["aucpace/src/utils.rs: scalar_from_hash"]}
{"id": "C44", "title": "AuCPace: an unknown user gets a stable answer and can never log in", "statement": "For a username without a verifier the server answers with a salt (or blinded salt) that depends only on the server secret and the username - the same in every session of that server - and the session's password-related string is fresh randomness unrelated to any password, so that a client is accepted only if its own password-related string equals that random string or the hash collides.", "quantifier": "every server history, every username, session and random value", "why_tests_cant": "stability must hold across every history of sessions", "anchors": ["aucpace/src/server.rs: lookup_failed, lookup_failed_strong, ServerSecret"]}
{"id": "C45", "title": "AuCPace: answers for unknown users are indistinguishable from answers for registered users", "statement": "An observer cannot tell from the server's AugmentationInfo whether a user exists. (False: a salt made by register is always 22 characters, the substitute is always 64; default parameters are empty; in the partially augmented protocol a registered user's X is constant while the substitute is drawn afresh.)", "quantifier": "every registered and every unregistered username", "why_tests_cant": "tests only look at registered users", "anchors": ["aucpace/src/server.rs: lookup_failed, generate_client_info_partial_aug", "aucpace/src/client.rs: register"]}
{"id": "C46", "title": "AuCPace: the strong blinded message reveals nothing about the credentials", "statement": "For any two credentials that do not map to the neutral point, every blinded point sent for one is sent for the other by exactly one other non-zero blinding value; and the salt recovered by the client does not depend on the blinding value.", "quantifier": "every pair of credentials, every blinding value", "why_tests_cant": "a statement about distributions", "anchors": ["aucpace/src/client.rs: start_augmentation_strong, StrongAuCPaceClientAugLayer::generate_cpace"]}
{"id": "C47", "title": "AuCPace: distinct strong credentials have distinct hash inputs", "statement": "The point that a strong client blinds is derived from an input determined uniquely by (username, password) and not shared with any other use of the hash. (False twice: username and password are concatenated without separator, and the same hash role is used for the CPace generator.)", "quantifier": "every pair of credentials", "why_tests_cant": "needs crafted pairs", "anchors": ["aucpace/src/client.rs: generate_salt_strong, start_augmentation_strong", "aucpace/src/utils.rs: generate_keypair"]}
{"id": "C48", "title": "AuCPace: no reachable panic", "statement": "No client or server call panics: the expect on the substitute salt, the expects on authenticator and hash array conversions, the salt generation and all slice operations always succeed.", "quantifier": "every input and random value", "why_tests_cant": "panics hide at sizes tests do not choose", "anchors": ["aucpace/src/server.rs: lookup_failed, receive_client_authenticator", "aucpace/src/client.rs: receive_server_pubkey, hash_password", "aucpace/src/utils.rs: scalar_from_hash"]}
{"id": "C49", "title": "AuCPace: the latest registration decides every later login", "statement": "After any sequence of registrations, password changes and logins for any users on a database that honours the Database contract, a user's login with the last registered password succeeds, logins of other users are unaffected, and a superseded password no longer authenticates unless hashes collide.", "quantifier": "every finite history of registrations of any users", "why_tests_cant": "histories are unbounded", "anchors": ["aucpace/src/database.rs: Database", "aucpace/src/server.rs: generate_client_info", "aucpace/src/client.rs: register, register_alloc"]}
{"id": "C50", "title": "AuCPace: concurrent sessions do not influence one another", "statement": "For a server running any number of sessions interleaved in any order with arbitrary (also adversarial) inputs, each session's outputs are those of running it alone; a session outputs at most one session key and, on the explicit path, only after receiving the correct authenticator; finished and failed sessions output nothing more.", "quantifier": "every interleaving, every number of sessions, every input", "why_tests_cant": "schedules are unbounded", "anchors": ["aucpace/src/server.rs: AuCPaceServer and its session states"]}
{"id": "C51", "title": "AuCPace: serialised messages decode to the same message", "statement": "With the serde feature, every client and server message survives a round trip through a length-prefixed binary format (bincode as in the examples), also when followed by other bytes; nothing else than a valid encoding of a point, scalar or salt is accepted.", "quantifier": "every message value, every trailing byte string", "why_tests_cant": "needs all messages", "anchors": ["aucpace/src/client.rs: ClientMessage", "aucpace/src/server.rs: ServerMessage", "aucpace/src/utils.rs: serde_saltstring, serde_paramsstring"]}
{"id": "C52", "title": "AuCPace: peers built with different features interoperate on the common messages", "statement": "A message of the basic protocol serialised by a build with strong_aucpace decodes to the same message in a build without it, and vice versa. (False for index-based formats: the optional variant shifts the following variant numbers.)", "quantifier": "every basic-protocol message", "why_tests_cant": "tests always build both sides with the same features", "anchors": ["aucpace/src/client.rs: ClientMessage", "aucpace/src/server.rs: ServerMessage"]}
{"id": "C53", "title": "AuCPace: long-term key pairs are matching pairs", "statement": "generate_long_term_keypair and the per-session server key always return (x, X) with X = x*B; with partial augmentation any stored matching pair gives agreement, and a stored pair that does not match makes authentication fail unless the hash collides.", "quantifier": "every random value, every stored pair", "why_tests_cant": "needs all scalars", "anchors": ["aucpace/src/utils.rs: generate_server_keypair", "aucpace/src/server.rs: generate_long_term_keypair, generate_client_info_partial_aug"]}
{"id": "C54", "title": "AuCPace: protocol values follow the published definition", "statement": "ssid = H0(s|t), the CPace generator is Map(H1(ssid|PRS|CI)), sk1 = H2(ssid|K), Ta = H3(ssid|sk1), Tb = H4(ssid|sk1), sk = H5(ssid|sk1), where Hi prepends i as a little-endian 32-bit word; W = w*B, X = x*B, PRS = encoding of x*w*B.", "quantifier": "every input", "why_tests_cant": "both sides sharing a mistake would still agree", "anchors": ["aucpace/src/utils.rs", "aucpace/src/lib.rs: Protocol description"]}
{"id": "C55", "title": "AuCPace: salts are faithfully encoded", "statement": "Every salt of at most 48 bytes is encoded as unpadded base64 and decodes to the same bytes, a longer one is refused, the encoding has the characters and length the PHC format requires, and parsing a serialised salt of at least three bytes gives back the same salt.", "quantifier": "every byte string", "why_tests_cant": "needs all lengths", "anchors": ["aucpace/src/client.rs: generate_salt_strong", "aucpace/src/server.rs: lookup_failed", "aucpace/src/utils.rs: serde_saltstring"]}
{"id": "C56", "title": "AuCPace: the strong client always blinds with a non-zero value", "statement": "start_augmentation_strong redraws until the blinding value is non-zero, so inversion is always defined; it consumes exactly as many draws as there are leading zero draws plus one.", "quantifier": "every random stream", "why_tests_cant": "a zero draw has probability 2^-252", "anchors": ["aucpace/src/client.rs: start_augmentation_strong"]}
{"id": "C57", "title": "SPAKE2: the first message hides the password from any distinguisher", "statement": "The public constructors draw one scalar from 64 generator bytes and send the blinded element for it. Every scalar arises from floor(2^512/l) or one more of the generator outputs, and for every set of messages and any two passwords the numbers of generator outputs for which the message falls into the set differ by at most l (of 2^512).", "quantifier": "every set of messages, every pair of passwords, every identity, all 2^512 generator outputs", "why_tests_cant": "a statement about the distribution over all generator outputs", "anchors": ["spake2/src/lib.rs: start_a, start_b, start_symmetric and their _with_rng forms", "spake2/src/ed25519.rs: random_scalar"]}
{"id": "C58", "title": "AuCPace: public keys and blinded points hide the password from any distinguisher", "statement": "With a generator that is not neutral every group element is the CPace public key for floor(2^512/l) or one more of the generator outputs; for every set of messages and any two passwords, sessions or channels the numbers of generator outputs for which the public key (client or server) or the blinded point of the strong protocol falls into the set differ by at most l (of 2^512). With a neutral generator the key is always neutral.", "quantifier": "every set of messages, every pair of sessions, all 2^512 generator outputs", "why_tests_cant": "a statement about the distribution over all generator outputs", "anchors": ["aucpace/src/utils.rs: generate_keypair, generate_server_keypair", "aucpace/src/client.rs: generate_public_key, start_augmentation_strong", "aucpace/src/server.rs: generate_public_key, generate_long_term_keypair"]}
{"id": "C59", "title": "AuCPace over the real ristretto255: accepted points and agreement", "statement": "A received string is a point exactly if it is the canonical, non-negative encoding of a ristretto255 element; exactly l strings are, one per element; the neutral element is 32 zero bytes and is the only key refused. Registration and login over ristretto255 and SHA-512 give both parties the same key, with no assumption about group or hash.", "quantifier": "every byte string, every execution", "why_tests_cant": "2^256 strings", "anchors": ["aucpace/src/utils.rs", "aucpace/src/client.rs", "aucpace/src/server.rs", "curve25519-dalek: RistrettoPoint"]}
{"id": "C60", "title": "SRP: the built-in moduli are safe primes and g generates", "statement": "For each of the seven built-in groups N and (N-1)/2 are prime and g generates the whole multiplicative group modulo N.", "quantifier": "every residue modulo each of the seven moduli", "why_tests_cant": "primality of numbers with up to 8192 bits and membership of every residue", "anchors": ["srp/src/groups.rs", "srp/src/groups/*.bin"]}
{"id": "C61", "title": "AuCPace: no random byte is used twice", "statement": "Whatever sequence of sessions is begun and long-term key pairs are made on one server, every call reads exactly the generator bytes following those read before; two nonces agree for exactly one in 256^k1 of the generator outputs and two key pairs for at most floor(2^512/l)+1 in 2^512; the server secret takes every 64-bit value for exactly one value of the first eight bytes. Inside a session augmentation key, replacement for the password-related string, blinding value and CPace key come from disjoint bytes.", "quantifier": "every sequence of calls, every generator output, every user database", "why_tests_cant": "a statement about all generator outputs and call sequences", "anchors": ["aucpace/src/server.rs: new, begin, generate_long_term_keypair, generate_client_info, generate_client_info_partial_aug, generate_client_info_strong, generate_client_info_partial_strong, generate_public_key", "aucpace/src/client.rs: begin, start_augmentation_strong, generate_public_key"]}
{"id": "C62", "title": "SRP: exponents, public values and secrets correspond in safe-prime groups", "statement": "With N and (N-1)/2 prime and g a generator: every nonzero residue has order 1, 2, (N-1)/2 or N-1 and only 1 and -1 have order at most 2; public values of the client correspond one to one to private values below N-1; whatever the verifier, every residue except k*v is the server's public value for exactly one private value, so the numbers of private values for which it falls into any given set differ by at most one between verifiers; outside the exceptional bases 0, 1, -1 the premaster secret determines the private value modulo (N-1)/2; the client's secret is zero exactly if the server sent k*v. Private values of up to 64 bytes never collide in the built-in groups.", "quantifier": "every such group, every private value, verifier and public value", "why_tests_cant": "needs all exponents below N", "anchors": ["srp/src/client.rs: compute_a_pub, compute_public_ephemeral, compute_premaster_secret, process_reply", "srp/src/server.rs: compute_b_pub, compute_public_ephemeral, compute_premaster_secret", "srp/src/groups.rs"]}
{"id": "C63", "title": "AuCPace examples: the two programs end with the same key however the network cuts the stream", "statement": "The client and server threads of key_agreement, key_agreement_partial_aug and key_agreement_strong, run as two programs joined by two byte streams with the recv! macro decoding whatever one read returns, end with the same key after registration, for every scheduling and every way of cutting the streams into reads. (False: when the client's nonce and username arrive in one read the server drops the username and both wait for ever; it holds when each read returns one message, and no finished program holds another key when reads return whole messages or parts of one; with other reads message boundaries are lost, and a client whose username is the encoding of the message announcing v makes the server look up v.)", "quantifier": "every schedule of two programs and every cutting of the byte streams into reads", "why_tests_cant": "the tests run on the loopback device with one schedule", "anchors": ["aucpace/examples/key_agreement.rs", "aucpace/examples/key_agreement_partial_aug.rs", "aucpace/examples/key_agreement_strong.rs"]}
{"id": "C64", "title": "AuCPace examples: the channel identifier determines the connection", "statement": "For connections whose ends have addresses of the same family the TCP channel identifier is equal exactly if address and port of both ends are equal, and swapping the ends changes it unless they coincide. Without the condition on families two different connections share an identifier.", "quantifier": "every pair of IPv4 or IPv6 socket addresses", "why_tests_cant": "all addresses and ports", "anchors": ["aucpace/examples/key_agreement.rs: TcpChannelIdentifier::new"]}
{"id": "C65", "title": "AuCPace examples: what the single-user databases store", "statement": "A stored verifier is found again for its user and for nobody else; a key pair can be stored exactly for the registered user; the database with a fixed-size name never panics and ignores names that are too long. Storing a second user loses the first, and the second user is then found with the key pair of the first.", "quantifier": "every username, every database state", "why_tests_cant": "all strings and states", "anchors": ["aucpace/examples/key_agreement.rs: SingleUserDatabase", "aucpace/examples/key_agreement_partial_aug.rs: SingleUserDatabase", "aucpace/examples/key_agreement_no_std.rs: SingleUserDatabase"]}
{"id": "C66", "title": "AuCPace examples: the no_std program never panics", "statement": "For every username, password and random bytes the program key_agreement_no_std, with postcard messages passed through a zeroed 1024-byte buffer, ends with the same key on both sides or returns the error of the registration or IllegalPointError; the error is UsernameOrPasswordTooLong if the two do not fit 99 bytes.", "quantifier": "every username, password and generator output", "why_tests_cant": "the example runs one user with one password", "anchors": ["aucpace/examples/key_agreement_no_std.rs"]}
{"id": "C67", "title": "Errors: the text of an error tells what went wrong and nothing else", "statement": "Display of the SRP error names the kind and the parameter and determines both; the texts the four SRP calls can produce and when are exactly listed, likewise those of SPAKE2's finish for every inbound message; the text of an AuCPace error determines the error provided the texts of password_hash errors do.", "quantifier": "every error value and every input to the calls that can fail", "why_tests_cant": "needs all parameter strings and all inbound messages", "anchors": ["srp/src/types.rs: Display for SrpAuthError", "spake2/src/error.rs: Display for Error", "aucpace/src/errors.rs: Display for Error"]}
{"id": "C68", "title": "AuCPace over ristretto255: the hash to the group rarely hits a given element", "statement": "Every element of ristretto255 is the image of at most 32 field elements under the Elligator map and of at most 2^263 of the 2^512 strings under from_uniform_bytes, so at least 2^249 elements are reached. Hence for all but at most 2^263 of the 2^512 answers of the hash to one query: the CPace generator and the strong point are not neutral (nor any other given element), two inputs do not share a generator (the exception named in C36-C38), and an honest login, plain, partially augmented or strong, with non-zero random scalars ends with the same key on both sides.", "quantifier": "every element, session, channel, credential and every hash function at the other inputs", "why_tests_cant": "the exceptional answers are one in 2^249", "anchors": ["aucpace/src/utils.rs: generate_keypair", "aucpace/src/client.rs: generate_public_key, generate_salt_strong", "aucpace/src/server.rs: generate_public_key"]}
{"id": "C69", "title": "One password guess per session", "statement": "Whatever the peer does, the messages of one session together with its outcome are consistent with one password only. AuCPace: two servers (or two clients) that have the same SSID and channel identifier, send the same values and receive the same values, and both accept the same authenticator, or both send the same authenticator, or hold the same key, have the same password-related string, hence the same verifier (client: the same password scalar), unless an explicitly named pair of hash inputs collides. SRP: for a public value B and scrambling parameter u, two exponents with different verifiers give the client the same secret for at most two of the N-1 private values. (SPAKE2: C21, C22.)", "quantifier": "all generators, databases, passwords and peer messages, including those of an attacker", "why_tests_cant": "a test plays honest peers; an attacker chooses messages to test many guesses at once", "anchors": ["aucpace/src/client.rs", "aucpace/src/server.rs", "aucpace/src/utils.rs", "srp/src/client.rs"]}
{"id": "C70", "title": "SRP: the large moduli are the published numbers", "statement": "The moduli of the built-in groups with 3072, 4096, 6144 and 8192 bits are 2^b - 2^(b-64) - 1 + 2^64 * (floor(2^(b-130) * pi) + c) with the published small constants c, pi being the real number, so no bit of the embedded files is wrong and nobody chose them.", "quantifier": "every bit of the four embedded files", "why_tests_cant": "a login test passes with any modulus; the test suite never compares the files with a definition", "anchors": ["srp/src/groups.rs", "srp/src/groups/3072.bin", "srp/src/groups/4096.bin", "srp/src/groups/6144.bin", "srp/src/groups/8192.bin"]}
{"id": "C71", "title": "SPAKE2: the blinding elements come from a public derivation", "statement": "The bytes of const_m, const_n and const_s decode to the elements that python-spake2 (named in the comments of the code) derives from the seeds 'M', 'N' and 'symmetric': HKDF-SHA256 of the seed to 48 bytes, the first y coordinate from that number on that belongs to a point with a non-neutral multiple by 8, the point with even x, times 8. The derivation has exactly one result for every seed.", "quantifier": "the three constants; every seed for uniqueness", "why_tests_cant": "both sides of a test use the same constants, whatever they are", "anchors": ["spake2/src/ed25519.rs: const_m, const_n, const_s"]}
{"id": "C72", "title": "Neither party alone determines the key", "statement": "Whatever the peer sends, replayed or chosen, two sessions of one side with the same received values end with the same key, or accept the same authenticator, only if they drew the same private scalar, unless an explicitly named pair of hash inputs collides (AuCPace client and server with the same SSID, explicit and implicit authentication; SPAKE2 all sides). For every received point except the neutral one (SPAKE2: except those of order dividing 8 up to blinding) each group element is the shared one for at most floor(2^512/l)+1 of the 2^512 generator outputs; in the exceptional case of SPAKE2 there are at most 8 shared elements.", "quantifier": "all received points and authenticators, all generators", "why_tests_cant": "an adversarial peer chooses its message after seeing the other one; a test uses honest peers and cannot count generator outputs", "anchors": ["aucpace/src/client.rs: receive_server_pubkey, implicit_auth", "aucpace/src/server.rs: receive_client_pubkey, implicit_auth", "aucpace/src/utils.rs: compute_first_session_key, compute_session_key", "spake2/src/lib.rs: finish"]}
{"id": "C73", "title": "A passive eavesdropper learns nothing about the password", "statement": "The messages of a whole AuCPace login with implicit authentication (nonces, username, x, salt and parameters, both public keys; strong variants: blinded point and blinded salt as well; plain and partially augmented) have the same joint distribution whatever passwords are registered and typed, right or wrong, except for the bias of reducing 512 bits: for every set of transcripts the counts of generator outputs differ by at most 3*2^512*l of 2^1024 (strong: 4*2^1024*l of 2^1536), provided the generators are not neutral. For SPAKE2 the same holds for the messages of any number of sessions with any passwords, without exception.", "quantifier": "all sets of transcripts, passwords, databases, session identifiers and channels; for SPAKE2 any number of sessions", "why_tests_cant": "a statement about the distribution of all messages together; single values say nothing", "anchors": ["aucpace/README.md: 21", "spake2/README.md: 21", "aucpace/src/client.rs", "aucpace/src/server.rs", "spake2/src/lib.rs: start_a, start_b, start_symmetric"]}
{"id": "C74", "title": "AuCPace: a leaked password-related string opens other sessions only with partial augmentation", "statement": "In the plain and strong protocols a client that uses the password-related string of one session is accepted in another session in which the server drew another x only if an explicitly given pair of hash inputs collides, and a given string occurs for at most floor(2^512/l)+1 of the 2^512 draws. With partial augmentation, plain or strong, the string is encode(xW) in every session: whoever has it from one session, or has both databases, completes every other session of that user without the password exactly as an honest client does.", "quantifier": "all sessions, databases, received blinded points, generators and channels", "why_tests_cant": "needs a client that is not built through the API and two sessions; the tests run single honest sessions", "anchors": ["aucpace/src/server.rs: generate_client_info, generate_client_info_partial_aug, generate_client_info_strong, generate_client_info_partial_strong, generate_prs, generate_prs_strong"]}
{"id": "C75", "title": "AuCPace: the life of a client session", "statement": "Through the typestate API, whatever messages the network delivers, a client session takes at most six calls, outputs at most one key and then allows no further call, outputs never both a key and an error, ends with its first error, and outputs a key only after a nonce, credentials, matching augmentation data, the request for its public key, the peer's key and (explicit) exactly the authenticator it expects.", "quantifier": "all lists of calls with arbitrary arguments, all generators and password hashers", "why_tests_cant": "the tests make one call sequence; the claim is about all of them", "anchors": ["aucpace/src/client.rs"]}
{"id": "C76", "title": "Acceptance means that the peer is in the same session; recordings are refused", "statement": "AuCPace: client and server sessions are run through arbitrary calls. If a server accepts the authenticator that a client session sent, each was given exactly the nonce of the other, the SSIDs agree and the client accepts the server's answer with the same key; and if a client accepts the authenticator that a server session sent, likewise, and what the server accepted is what the client sent. Two server sessions (or two client sessions) with different nonces never accept the same authenticator, nor (implicit) end with the same key, whatever they were given. With given SSIDs the same authenticator is accepted twice only for the same shared element. SRP: two sessions accept the same proof only if the public values (of equal length) and the keys are the same; in the safe-prime groups that means the same private value modulo N-1. Each up to an explicitly given pair of colliding hash inputs.", "quantifier": "all call sequences with arbitrary arguments (an attacker that controls the network), all databases, users and generators", "why_tests_cant": "quantifies over all interleavings and modifications by the network and over pairs of sessions", "anchors": ["aucpace/src/client.rs", "aucpace/src/server.rs", "aucpace/src/utils.rs: compute_ssid, compute_authenticator_messages", "srp/src/client.rs: verify_server", "srp/src/server.rs: verify_client"]}
{"id": "C77", "title": "Who can compute keys of past sessions can solve Diffie-Hellman", "statement": "An attacker that has recorded the public values of an honest session and learned the password, verifier and all long-term values later, and from these finds the key (SRP) or a string that is hashed to the key (SPAKE2, AuCPace with implicit authentication), gives, by a fixed transformation that does not use the private values of the session, the Diffie-Hellman element of the two ephemeral values, unless the string collides with the one the code hashes. For SRP the two are equivalent.", "quantifier": "every attacker function, all passwords, identities, sessions and private values", "why_tests_cant": "no test can quantify over attackers", "anchors": ["spake2/src/lib.rs: finish", "aucpace/src/utils.rs: compute_first_session_key", "aucpace/src/client.rs: implicit_auth", "aucpace/src/server.rs: implicit_auth", "srp/src/client.rs: process_reply", "srp/src/server.rs: process_reply"]}
{"id": "C78", "title": "What a stolen verifier is good for", "statement": "SRP: for every public value A that the server does not refuse there is exactly one exponent e below N-1 with A*v^u = g^e; the server's key is g^(e*b), the Diffie-Hellman element of A*v^u and B - k*v, and a proof made from another candidate key is accepted only if an explicitly given pair collides. Who knows the verifier and e (for instance by predicting u before choosing A) is accepted without the password. AuCPace, plain and strong: an attacker that makes the password-related string from the verifier W and the announced X in any way and goes on like a client is accepted like an honest client if the string encodes the Diffie-Hellman element of X and W, and otherwise only if an explicitly given pair of hash inputs collides.", "quantifier": "all public values, verifiers, private values and attacker functions; the safe-prime groups for the SRP bound", "why_tests_cant": "the attacker is not an API user; the claim is about every strategy", "anchors": ["srp/src/server.rs: process_reply, compute_premaster_secret", "srp/src/utils.rs: compute_u, compute_k", "aucpace/src/server.rs: generate_client_info, generate_client_info_strong"]}
{"id": "C79", "title": "When the value that confirms password guesses is released", "statement": "AuCPace: a server session outputs its authenticator only in its last call, together with the key, and only if that call delivered exactly the client authenticator it expects; a session that got another one ends with MutualAuthFail and has output neither a key nor an authenticator. SRP: the server's proof can be read from SrpServerVerifier whether or not the client was accepted; a refused client that gets it confirms the right password with the client's own calls, and a wrong guess passes only if it gives the server's key or an explicitly given pair collides. The documented order (verify_client, then send proof) is therefore needed and not enforced.", "quantifier": "all call sequences on a server session in any state; all passwords, salts, ephemeral values and guesses, all groups with coprime generator", "why_tests_cant": "the tests follow the documented order with the right password", "anchors": ["aucpace/src/server.rs: receive_client_authenticator", "srp/src/server.rs: SrpServerVerifier::proof, verify_client", "srp/src/client.rs: process_reply, verify_server"]}
{"id": "C80", "title": "Examples: the parameters of the password hasher survive storage and transport", "statement": "The example clients read the scrypt parameters back from the string that registration made: for all log_n, r, p in the range of their types that Params::new accepts, parsing gives the same values, and the string passes the check of the decoder. The output length is not in the string: the client always uses the recommended one, so a user registered with another length logs in only if both lengths give the same scalar or an explicitly given pair of hash inputs collides. Whatever string is sent, the parameters the client goes on with are in range, accepted by Params::new and of the recommended length, and the server can bring about any such parameters. For a user the server does not know the string is empty and the client program panics instead of failing authentication. With the recommended length the no_std program ends with equal keys or a library error and never panics in its parameter handling.", "quantifier": "all parameters in the range of their types, all predicates for Params::new, all users, passwords, databases and generators", "why_tests_cant": "the examples run one set of parameters with a known user", "anchors": ["aucpace/examples/key_agreement.rs:176-183", "aucpace/examples/key_agreement_partial_aug.rs:184-191", "aucpace/examples/key_agreement_strong.rs:180-187", "aucpace/examples/key_agreement_no_std.rs:136-143", "aucpace/src/utils.rs: serde_paramsstring"]}
{"id": "C81", "title": "Proofs and authenticators are compared in constant time", "statement": "The checks of SRP proofs and AuCPace authenticators, written with a record of the branches taken, positions read and lengths hashed: the record depends only on the lengths of the strings and on the outcome, every position is read, and the results are those of the functions of the model. In particular all wrong proofs of the right length look alike, while a comparison that stops at the first difference would give away how many bytes of a guess are right.", "quantifier": "all expected and received proofs, keys and SSIDs", "why_tests_cant": "running-time tests are statistical and see a few inputs", "anchors": ["srp/src/server.rs: verify_client", "srp/src/client.rs: verify_server", "aucpace/src/server.rs: receive_client_authenticator", "aucpace/src/client.rs: receive_server_authenticator"]}
{"id": "C82", "title": "SRP: how many verifiers a public value of the server is consistent with", "statement": "If N is prime and divides neither k nor g, then for every public value B exactly min(m, ord g) verifiers below N are consistent with it when private values are below m. If g generates and private values are not bounded, all verifiers but one remain; if g is a square, every B rules out at least half of them. In the built-in groups, with private values of up to 64 bytes as documented, exactly 2^512 verifiers remain, so the hiding is computational.", "quantifier": "all public values, all bounds for private values, all prime moduli and hashes with k not divisible by N", "why_tests_cant": "counts over all verifiers and private values", "anchors": ["srp/src/server.rs: compute_b_pub, compute_public_ephemeral", "srp/src/types.rs: SrpGroup", "srp/src/groups.rs"]}
{"id": "C83", "title": "SPAKE2: components of small order give away the last three bits of the scalar and nothing else", "statement": "Every element a peer can send is the sum of one of the prime-order group and one of order dividing 8; the second adds to the shared element its multiple by the scalar modulo 8 and nothing else. A peer that knows the password and adds a point of order 8 is not refused and finds the scalar modulo 8 from the key: exactly one of its eight candidates is right, unless an explicitly given pair of transcripts collides. Honest messages have no such component.", "quantifier": "all sides, passwords, scalars, peer scalars and points of order 8", "why_tests_cant": "the tests only exchange honest elements; the claim is about all elements of the curve", "anchors": ["spake2/src/ed25519.rs: bytes_to_element, scalar_multiply", "spake2/src/lib.rs: finish"]}
{"id": "C84", "title": "AuCPace server and SPAKE2: an active attacker without computational bound logs in with at most one candidate per session", "statement": "The password is one of a set S of candidates. An attacker of any computational power runs n sessions one after the other and adapts to messages and outcomes. Of all pairs of a candidate and 64-byte generator outputs at most n*(2^512+ell)^n contain a session in which the AuCPace server accepts it (or whose session key it names, for implicit authentication and SPAKE2), that is a fraction n/|S| up to the bias of the draw, apart from cases that name a hash collision, a neutral generator or a zero scalar. The attacker that tries n candidates attains n*2^(512*n).", "quantifier": "all finite sets of candidates, attackers (functions of the history), numbers of sessions, SSIDs, channel identifiers, databases with distinct verifiers; plain, partially augmented and strong variants; explicit and implicit authentication", "why_tests_cant": "a test plays one strategy with a few guesses; the claim bounds every strategy over all generator outputs", "anchors": ["aucpace/src/server.rs: generate_client_info, generate_public_key, receive_client_pubkey, receive_client_authenticator, implicit_auth", "spake2/src/lib.rs: start_*_with_rng, finish"]}
{"id": "C85", "title": "Example programs: for which bytes a thread returns a key", "statement": "Whatever bytes a peer sends, in whatever chunks, a server or client thread of the example programs returns a key if and only if its first four reads begin with a nonce, the augmentation message of its variant (for which the augmentation succeeds), a public key that is not neutral, and the one authenticator belonging to the key it returns; the messages it has written by then are determined. After four reads it has returned or stopped with an error, so it never waits for a fifth.", "quantifier": "all byte chunks returned by the reads, databases, users, passwords, channel identifiers, generator outputs; all variants and digests with 64-byte output", "why_tests_cant": "a test feeds a few streams; the equivalence is over all byte sequences", "anchors": ["aucpace/examples/key_agreement.rs:60-227", "aucpace/examples/key_agreement_strong.rs", "aucpace/examples/key_agreement_partial_aug.rs"]}
{"id": "C86", "title": "AuCPace: the strong variants resist pre-computation, the plain ones do not", "statement": "Plain variants: any one session with the server reveals the salt from which the verifiers of all candidate passwords can be computed before the database is stolen; for the right password it is the stored verifier. Strong variants: one session prepares one candidate in the same sense, and an attacker that holds the points of m candidates and adds multiples of the elements it holds gets the salt points of more than n candidates from n sessions for at most m*(n+2)*ell^m of the ell^(m+1) combinations of a server secret and points; n candidates from n sessions are attained.", "quantifier": "all users, passwords, hashers, generators, databases, session states; all numbers of candidates and sessions; all adaptive algebraic attackers (queries may contain earlier answers)", "why_tests_cant": "the claim is about all attackers of a kind and counts all secrets; a test runs one", "anchors": ["aucpace/README.md:44-45", "aucpace/src/server.rs: generate_client_info, generate_client_info_strong, generate_client_info_partial_strong", "aucpace/src/client.rs: register_alloc_strong, start_augmentation_strong"]}
{"id": "C87", "title": "The default password hasher computes scrypt", "statement": "For every password, salt, r, p, output length and log_n up to 32 the scrypt crate's in-place algorithm (Salsa20/8, block mix, ROMix, PBKDF2) computes the function of RFC 7914 and returns the requested number of bytes. The bound is exact: for every larger log_n the crate's integerify differs from Integerify(X) mod N for some state. Params::new accepts exactly the parameters that satisfy the conditions of RFC 7914 (and N = 1), with 128*r*N below 2^64 and an output of 10 to 64 bytes.", "quantifier": "all passwords, salts and parameters", "why_tests_cant": "a test compares a few vectors; parameters with a large N take too long and too much memory to run", "anchors": ["aucpace/src/lib.rs:115-117", "aucpace/Cargo.toml: scrypt", "aucpace/examples/key_agreement.rs:176-183"]}
{"id": "C88", "title": "The default client registers and logs in", "statement": "With ristretto255, SHA-512 and scrypt: registration never fails if the output length is 32 or 64 and the buffer suffices, and sends the multiple of the base point by scrypt(username:password, salt) read in little-endian, plain and strong; with any other length it fails with HashSizeInvalid. A login with the same credentials and the stored parameters then ends with the same 64-byte key on both sides or IllegalPointError. Whatever salt a server sends, the client either uses scrypt of the decoded bytes or returns a password-hashing error, the latter exactly if the string is not an encoding.", "quantifier": "all users, passwords, generators, buffers, accepted parameters, databases, nonces, channel identifiers; all salts sent by a server", "why_tests_cant": "a test runs one set of credentials and parameters; the statement has no abstract hash, group or hasher left", "anchors": ["aucpace/src/lib.rs:111-117", "aucpace/src/client.rs:120-154, 920-981", "aucpace/src/utils.rs:133-153"]}
{"id": "C89", "title": "The default client accepts equivalent passwords", "statement": "Credentials enter scrypt as an HMAC-SHA256 key. Two strings username:password with the same HMAC block have the same hash; conversely the same hash of at least 32 bytes names a SHA-256 collision unless the blocks are the same. Strings of at most 64 bytes have the same block exactly if they differ by zero bytes at the end; a longer string is equivalent to its SHA-256 hash. So in the plain and partially augmented variants a login with zero bytes appended to the password (up to 64 bytes in total) behaves exactly as with the registered password. In the strong variants the salt changes.", "quantifier": "all users, passwords, salts, parameters, databases, generators, session starts and ways to authenticate", "why_tests_cant": "a test would have to try this password; the converse is about all pairs of passwords", "anchors": ["aucpace/src/client.rs:920-981", "aucpace/src/lib.rs:115-117"]}
{"id": "C90", "title": "What a repeated random value gives away", "statement": "SPAKE2: if two sessions are opened with the same bytes from the generator, a pair of passwords is consistent with both messages exactly if it satisfies one equation that an observer can check; with one password known, or with the same password in both roles, exactly the passwords with the right scalar remain; with the same side, equal messages mean equal scalars. SRP: if a server uses one private value for two users, who knows one verifier computes the other one from the public values, and exactly the right candidate verifier is consistent with both; without a known verifier only the difference is given away. AuCPace: two strong clients with the same blinding value send the same point exactly if the points of their credentials are the same, which means the same credentials up to the missing separator or a named collision.", "quantifier": "all passwords, candidates, sides, identities, verifiers, private values, blinding values, prime groups where k is invertible, credentials", "why_tests_cant": "a test with two sessions sees two messages; which passwords remain is a statement about all candidates and all random values", "anchors": ["spake2/src/lib.rs: start_a_internal, start_b_internal, start_symmetric_internal", "srp/src/server.rs:117-124", "aucpace/src/client.rs:441-473"]}
{"id": "C91", "title": "Recorded sessions look random to who does not ask for the shared secret", "statement": "With the hash values that belong to an honest session drawn at random, and the hash function arbitrary elsewhere: AuCPace's session key is found by an attacker who knows the password and everything but the private scalars, and has the messages, for at most (q+1)/2^512 of the draws, and told from an independent string with a comparable error, unless it asks for an input that contains the Diffie-Hellman element; SPAKE2's key is found for at most one draw and told from an independent string only by attackers that ask for an input that ends with the Diffie-Hellman element; SRP's proofs are told from independent strings only by attackers that ask for an input that ends with the premaster secret, up to five draws in 256^L. Who asks for that input has the key for every draw.", "quantifier": "all attackers that ask for finitely many hash values, all hash functions elsewhere, all draws of the session's values, all passwords, identities, salts and private values of an honest session", "why_tests_cant": "a statement about all attackers and the fraction of all hash functions for which they succeed", "anchors": ["aucpace/src/utils.rs:85-129", "aucpace/src/client.rs:783-916", "aucpace/src/server.rs:552-680", "srp/src/utils.rs:33-49", "spake2/src/ed25519.rs:132-219", "spake2/src/lib.rs:373-443"]}
{"id": "C92", "title": "AuCPace: what the secret behind the answers for unknown users is worth", "statement": "After a restart of the server the salt of a registered user is the same and that of any other changes, or a named pair of strings is a collision of the truncated hash. Over all generators there are at most 2^64 tables of substitute salts. From one answer for an unknown user a search over the 64-bit values finds a value that is the secret, or names a truncated collision, and with the secret every answer tells whether the user is registered unless the stored salt is that very string. In the strong variant a value explains an answer exactly if its hash agrees modulo the group order. The string hashed has no number in front: it is one of the protocol's own inputs for some username exactly for 6 * 2^32 of the 2^64 secrets.", "quantifier": "all hash functions with 64-byte output, databases, users, generators and states, secrets and sessions", "why_tests_cant": "the secret space cannot be searched in a test, and a restart with another secret is not exercised by any test", "anchors": ["aucpace/src/server.rs:34-40", "aucpace/src/server.rs:63-70", "aucpace/src/server.rs:438-515"]}
{"id": "C93", "title": "The project's own tests, for all inputs", "statement": "Each test function of the repository that has inputs is a program with these inputs as parameters, and its outcome is determined. SRP: the login test passes for the right password exactly unless a named degenerate value occurs, and the bad-public-key tests pass for every multiple of N. SPAKE2: the two agreement tests always pass; the mismatch test passes for any two different passwords unless a named pair collides under SHA-256; the reflection test always passes; the length test passes exactly for messages of another length. AuCPace: the sixteen integration tests pass exactly unless a drawn value is degenerate, when they return IllegalPointError; no assertion and no unwrap fails. The unit tests with a refused point or SSID pass for exactly the neutral element and exactly the SSIDs of fewer than 16 bytes; but the two tests for a neutral blinded point pass for every point, because their database holds the exponent zero.", "quantifier": "all user names, passwords, identities, SSIDs, messages, states, groups and generator outputs", "why_tests_cant": "this is the tests themselves with every literal replaced by a variable; a test fixes one value of each and draws a few random ones", "anchors": ["srp/tests/srp.rs:8-69", "srp/tests/bad_public.rs:8-24", "spake2/tests/spake2.rs:3-75", "aucpace/tests/test_key_agreement.rs:49-302", "aucpace/tests/test_key_agreement_strong_partial_aug.rs:83-339", "aucpace/src/client.rs:1046-1268", "aucpace/src/server.rs:731-882"]}
{"id": "C94", "title": "A session confirms one candidate, however much is computed afterwards", "statement": "An attacker runs sessions with AuCPace clients and servers, or with SPAKE2 sides, knows all public elements of all sessions and the generators of all candidates, sends one element to each session and tests, as often as it likes and in any adaptive order, whether an element it has computed gives the authenticator or the key of a session. It computes in the group by adding multiples. For n sessions, m candidates and T moves the share of the unknown values for which a test ever succeeds is at most n/m + 2T/ell, apart from named hash collisions (and, for AuCPace, a neutral generator). The n/m is attained in 2n moves. For SPAKE2 the sent and tested points may have any part of small order, and the crate's group is one of the groups the count ranges over.", "quantifier": "all n, m, T, all adaptive strategies of such an attacker, all digests with 64-byte output, all groups, sides, identities and SSIDs; logarithms, private keys and right candidate are counted", "why_tests_cant": "a test runs one attacker against one session; this is a statement about everything an attacker of this kind can do after any number of sessions", "anchors": ["aucpace/src/client.rs:783-801", "aucpace/src/client.rs:833-871", "aucpace/src/server.rs:552-572", "aucpace/src/server.rs:599-630", "aucpace/src/server.rs:664-680", "spake2/src/lib.rs:373-443", "spake2/src/lib.rs:445-484"]}
{"id": "C95", "title": "An attacker that sees the session keys and asks a random hash function names the right candidate no more often than by one guess per session", "statement": "An attacker runs n sessions with AuCPace clients and servers, or with SPAKE2 sides, knows all public elements and the generators or scalars of all candidates, sends one element to each session and is given everything the session returns for it (message, state and thereby the first session key, or the key). It asks the hash function for values at elements it has computed and compares elements, adaptively and in any order, and finally names a candidate. It computes in the group by adding multiples; the hash function is drawn at random at the inputs that hold the secret. For m candidates and T steps the share of the unknown values and hash functions for which it names the right one is at most (n+1)/m + T(T+1)/ell. For SPAKE2 it may pass on the messages of two sessions, which then have the same key. An attacker that answers as a peer with a candidate is told whether it was right.", "quantifier": "all n, m, T, all adaptive strategies of such an attacker and all final choices, all sides, identities and SSIDs, all digests of the right length outside the drawn inputs; logarithms, private keys, right candidate and hash functions are counted", "why_tests_cant": "a statement about the share of hash functions and of secrets for which an unknown program succeeds cannot be sampled", "anchors": ["aucpace/src/client.rs:783-801", "aucpace/src/client.rs:833-871", "aucpace/src/server.rs:552-572", "aucpace/src/server.rs:599-630", "aucpace/src/server.rs:664-680", "spake2/src/lib.rs:373-443", "spake2/src/lib.rs:445-484"]}
{"id": "C96", "title": "AuCPace: which of the exchanged elements acceptance guarantees", "statement": "The network may deliver any elements in place of the two public keys. Both sides accept and hold the same key whenever both public keys were multiplied by the same number other than zero, and, apart from named hash collisions, in no other case; with another factor than one neither side has seen what the other sent, and the key is another one. A server of the strong variants that is sent f times the blinded element answers with f times the blinded salt in the same state, so a network that multiplies by f and by its inverse is not noticed either. The server's element X cannot be replaced: a client given another X (same salt and parameters) has another password-related string unless the password was hashed to zero.", "quantifier": "all digests with 64-byte output, all groups, all states with the same SSID and password-related string, all generators, all replacements by the network, known and unknown users, all four client variants", "why_tests_cant": "quantifies over everything a network can deliver; tests deliver the elements unchanged", "anchors": ["aucpace/src/utils.rs: compute_first_session_key, compute_authenticator_messages", "aucpace/src/client.rs:524-749", "aucpace/src/client.rs:783-916", "aucpace/src/server.rs:294-515", "aucpace/src/server.rs:552-680"]}
{"id": "C97", "title": "Keys look random, also to somebody who knows the passwords", "statement": "An algebraic attacker knows the passwords of all sessions (SPAKE2: the passwords; AuCPace: the generators that follow from them) and everything the sessions send. It asks a hash function drawn at random, compares elements, sends one element to each session and is told what the session returns. Compare this with an ideal game in which a session's key is a value of a second random function that the attacker cannot ask: for SPAKE2 at the public part of the transcript, for AuCPace at the session id and the shared element. Only sessions that were sent an element made from a known scalar keep their key, which the attacker can indeed compute. For every attacker, every number T of steps and every set of histories the shares of the unknowns and hash functions for which the history falls into the set differ by at most 2T(T+1)/ell for SPAKE2 and by at most (2T(T+1)+m+n)/ell for AuCPace with m session ids and n sessions. Sessions whose messages were only passed on are among those with ideal keys, and matching ones get the same key; so their keys stay secret when the passwords become known.", "quantifier": "all attackers, all numbers of sessions and steps, all sides, identities, passwords and session ids, all sets of histories; shares over all private keys, constants or generators and all hash functions", "why_tests_cant": "a statement about the difference of two counts over all private keys and hash functions for every strategy of an attacker", "anchors": ["spake2/src/lib.rs:373-483", "spake2/src/ed25519.rs:132-217", "aucpace/src/client.rs:783-871", "aucpace/src/server.rs:552-630", "aucpace/src/utils.rs: compute_first_session_key, generate_keypair"]}
{"id": "C98", "title": "AuCPace: who does not guess the password is not accepted", "statement": "An algebraic attacker runs n clients and servers with explicit mutual authentication under m session ids; it may run several under the same session id and pass on, mix or replace all messages. It knows the generators of all candidates for the shared secret and the public keys of the sessions, may compare elements, ask the hash functions for first session keys, authenticators and session keys, and send each session one element and one authenticator; it gets every message of the sessions and the session keys of those that accept. The hashes for first session keys, authenticators and session keys are drawn at random. For every attacker and every number T of steps, the share of the logarithms, private keys, candidates and hash functions for which some client accepts although no server of its session id has the same first session key, or some server although no client has, is at most n/|candidates| + T(T+1)/ell + 3nT\u00b2/256^64 + (m+n)/ell. Conversely an attacker that tries one candidate with one session is accepted in four steps whenever that candidate is right.", "quantifier": "all attackers, all numbers of sessions, session ids, steps and candidates, clients and servers in any arrangement; shares over all private keys, generators, candidates and hash functions", "why_tests_cant": "a count over all private keys and hash functions for every strategy of an attacker", "anchors": ["aucpace/src/client.rs:833-856", "aucpace/src/client.rs:906-916", "aucpace/src/server.rs:599-614", "aucpace/src/server.rs:664-680", "aucpace/src/utils.rs: compute_first_session_key, compute_authenticator_messages, compute_session_key"]}
{"id": "C99", "title": "SRP server: an active attacker without computational bound logs in with about one candidate per session", "statement": "In a group with a safe prime modulus N other than 5 and k not divisible by N, the servers of n sessions hold the verifier of one of several candidates whose residues are not 0 and differ, and private values below N-1. The hash function is drawn at random for all inputs up to some length, except the one that gives k. An attacker without computational bound knows all candidate verifiers and all public values of the servers; in T moves it asks for hash values and sends each server one A and one proof, where A is not 1 or -1 modulo N (these the code does not refuse) and the inputs of the hashes that follow are among those drawn; it gets the server's proof when it is accepted. The share of the candidates, private values and hash functions for which some server accepts is at most (n/|candidates|)(N/(N-1))^n + n|candidates|/(N-1) + T(n|candidates|(256^outLen/((N-1)/2)+1)+T+1)/256^outLen. In the built-in groups with hash values of up to 64 bytes the middle factor is 1. Conversely there is such an attacker that is accepted within 3n moves whenever one of n candidates it tries is the right one.", "quantifier": "all attackers, all numbers of sessions, moves and candidates, all groups with a safe prime modulus, all verifiers; shares over all candidates, private values and hash functions", "why_tests_cant": "a count over all private values and hash functions for every strategy of an attacker", "anchors": ["srp/src/server.rs:96-124", "srp/src/server.rs:129-164", "srp/src/server.rs:181-187", "srp/src/utils.rs:8-13", "srp/src/utils.rs:33-39"]}
{"id": "C100", "title": "AuCPace server and SPAKE2: an attacker without computational bound logs in with about one candidate per session, hash collisions included", "statement": "The sessions have one of several candidates as password (AuCPace server: the verifier of one, with different and non-neutral generators in each session; SPAKE2: candidates with different hashes). The hash function is drawn at random (AuCPace: for all inputs up to some length but those for generators; SPAKE2: for all inputs as long as a transcript). An attacker without computational bound sees the public keys of all n sessions, asks for hash values and sends each session at most one message together with an authenticator or with what it takes for the session key, in T moves. The share of candidates, generator outputs and hash functions for which a server accepts the authenticator or a session has the key named is at most (n/|candidates|)((2^512+ell)/2^512)^n + n(1/ell+1/2^512) + T(2T+1)/256^64 for AuCPace (plain, partially augmented and strong; explicit and implicit authentication) and (n/|candidates|)((2^512+ell)/2^512)^n + T(T+1)/256^32 for SPAKE2 of any sides and identities. There is an attacker that succeeds within 3n (SPAKE2: 2n) moves whenever one of n candidates it tries is the right one.", "quantifier": "all attackers, all numbers of sessions, moves and candidates, all SSIDs, channel identifiers, databases, sides and identities; shares over all candidates, generator outputs and hash functions", "why_tests_cant": "a count over all generator outputs and hash functions for every strategy of an attacker", "anchors": ["aucpace/src/server.rs:549-572", "aucpace/src/server.rs:599-632", "aucpace/src/server.rs:664-680", "aucpace/src/utils.rs:14-36", "spake2/src/lib.rs:373-443", "spake2/src/ed25519.rs:132-219"]}
{"id": "C101", "title": "How often an honest login with the right password fails", "statement": "Random values can be degenerate, and then a party refuses a neutral point (AuCPace) or B = 0 (SRP). AuCPace over ristretto255, plain and strong, with fresh or stored key pair, after any registration and for all nonces or established SSIDs: of all strings of bytes from which the parties draw their scalars together with the hash value that gives the generator, at most one in 2^248 makes the login end otherwise than with the same key on both sides (strong: for an account whose blinded salt is not neutral; stored pair: exponent not zero). The accounts and key pairs excluded there can never be used, and at most one in 2^251 strings makes one. SRP in a group of a safe prime with a generator: of the 256^L private values of L bytes of the server at most 256^L/(N-1) + 1 make a login with the right password fail, whatever the client draws.", "quantifier": "all user names, passwords, hashers, SSIDs, channel identifiers, databases; counts over all outputs of the generators and all answers of the hash", "why_tests_cant": "failures of probability below 2^-247 are never seen in tests; the claim is a count over all generator outputs", "anchors": ["aucpace/src/client.rs", "aucpace/src/server.rs", "aucpace/src/utils.rs:14-36", "srp/src/client.rs", "srp/src/server.rs"]}
{"id": "C102", "title": "AuCPace: nobody logs in to an account that does not exist", "statement": "The users of n sessions are unknown to the server, which therefore draws a password-related string of 32 bytes in each. An attacker without computational bound sees the public keys of all sessions, asks for hash values and sends each session at most one public key with an authenticator or with what it takes for the session key, in T moves; it knows the server secret and the generator for every password-related string. Over ristretto255 the share of hash functions, strings drawn and generator outputs for the CPace keys for which a server accepts the authenticator or has the session key named is at most n*1023*(((2^512+ell)/2^512)^n + 1)/2^256 + n(1/ell+1/2^512) + T(2T+1)/256^64 + n/2^1000, in the plain, partially augmented and strong variants, with explicit and implicit authentication. For any hash function for the generators the same holds with N in place of 1023 and without the last term, if no element is the generator of a session for more than N strings.", "quantifier": "all attackers, numbers of sessions and moves, user names, SSIDs, channel identifiers, databases without these users, server secrets; shares of all hash functions and random bytes", "why_tests_cant": "the attacker is any function; probabilities of 2^-245 cannot be observed", "anchors": ["aucpace/src/server.rs:437-515", "aucpace/src/server.rs:549-680", "aucpace/src/utils.rs"]}
{"id": "C103", "title": "AuCPace: the work of the server tells whether a user is registered", "statement": "The sequence of random draws, hashes, group operations and encodings with which the server answers a user name depends on nothing but whether the user is registered (and has a long-term key pair) and on the length of the name of an unknown user: not on the password, the verifier, the salt, the server secret or the random bytes. It does tell registered users from unknown ones in every variant: for a registered user the server computes two products in the group more in the plain and partially augmented variants, one more in the strong ones. From its public key on the operations are the same for both, given the lengths, whether the public key of the client is neutral and whether the authenticator is accepted.", "quantifier": "all groups, hash functions with 64 bytes of output, databases, user names, server secrets, SSIDs, blinded points, client public keys, authenticators and random bytes", "why_tests_cant": "a measurement samples few users on one machine; that no other data matters and that the two kinds of users always differ are statements about all databases and inputs", "anchors": ["aucpace/src/server.rs:201-515", "aucpace/src/server.rs:552-680", "aucpace/src/utils.rs"]}
{"id": "C104", "title": "The client proves itself first: discrete logarithms and a list of passwords are enough to be accepted as the server", "statement": "In SRP and in AuCPace with explicit authentication the client sends its proof before it has seen one. Who plays the server, can take discrete logarithms and has a list that contains the password therefore needs no guess in the session: they run the client's own program for every password of the list, with the logarithm of the client's public key as secret exponent, keep the first run that gives the client's proof, and answer with the server proof of that run. The client accepts it and has the session key of that run, unless the inputs of the client proof in the two runs are a collision of the hash. This holds for every salt, every key and all parameters that they choose, and in the strong variant of AuCPace for every secret with which they answer the blinded point. Who has only recorded the session finds its key by the same search; in the strong variant they take the secret from the blinded salt. A server gives such attackers one guess for each session (C99, C100).", "quantifier": "all safe-prime groups with a generator (SRP), all groups of prime order (AuCPace), all hash functions, password hashers, buffers, user names, lists of passwords, salts, public keys, SSIDs, channel identifiers, oracles for discrete logarithms and random bytes; the exponent of the SRP client and the public key of the AuCPace client are not zero", "why_tests_cant": "no test can take discrete logarithms in these groups; that the reply is accepted whatever the list, the salt and the keys are is a statement about all of them", "anchors": ["srp/src/client.rs:45-57", "srp/src/client.rs:189-226", "srp/src/client.rs:243-249", "aucpace/src/client.rs:524-552", "aucpace/src/client.rs:833-850", "aucpace/src/client.rs:906-916"]}
