# Formal model of RustCrypto/PAKEs: design

Source: `/repo` (crates `srp`, `spake2`, `aucpace`) at the pinned commit, read as text. Nothing of it is
built or run. Everything below is proved in Lean 4.33.0 with Mathlib; the Lake project is `/verif/lean`.

## Trusted base

* The Lean 4 kernel. Every theorem depends at most on `propext`, `Classical.choice`, `Quot.sound`
  (checked with `#print axioms` for every claimed theorem).
  No own axioms, no `sorry`, no `native_decide`, no `bv_decide`. Closed numerical facts (group constants,
  conformance vectors) are evaluated by the kernel with `decide +kernel` or `rfl`.
* The reading of the Rust source: the Lean definitions in `Verif/*/Model.lean` are transcriptions by hand; each
  cites file and lines. They are the part a reviewer must compare with the code.
* The assumptions about dependencies listed below.

## How Rust is represented

* `Bytes` is `List UInt8`. Slices, `Vec<u8>`, arrays, `GenericArray` are all `Bytes`; lengths that Rust fixes by
  type are explicit hypotheses or subtype fields.
* `Res e a` is `ok a | err e | panic`. Every assertion, `unwrap`, `expect`, slice index, `copy_from_slice`,
  big-integer underflow and `modpow` with modulus zero that is in the code appears as `panic`. "No panic" is a
  theorem, not a convention.
* `BigUint` (num-bigint 0.4.6) is `Nat`, with `from_bytes_be` / `to_bytes_be` written out (in particular
  `to_bytes_be(0) = [0]`).
* A `Digest` is a function on byte strings with a fixed output length; the streaming `new/update/finalize` is the
  accumulation of the input. No other law is assumed: security theorems say "the conclusion, or here are two explicit
  different inputs with equal hash".
* A random generator is a state type with `fill_bytes` returning the requested number of bytes. Secrets drawn from it are thus
  arbitrary and universally quantified.
* `ConstantTimeEq` is modelled by its result only. Timing, memory zeroisation, `Zeroize`, compiler behaviour are out of scope.

## What is modelled of the dependencies and with what assumptions

| dependency | model | assumption |
|---|---|---|
| `num-bigint` | `Nat` | arithmetic is exact |
| `digest`, `sha1`, `sha2`, `hkdf` | abstract digest; SHA-1, SHA-256, SHA-512, HMAC, HKDF also concretely | output length |
| `curve25519-dalek` Edwards | concrete affine twisted Edwards curve over `ZMod (2^255-19)` with a proved group law, compression and decompression | the library computes that group law and encoding |
| `curve25519-dalek` ristretto | concrete (`Verif/Ristretto`): the quotient of the even points by the 4-torsion, with the library's `compress`, `decompress` and Elligator map; the laws in `Aucpace/Group.lean` are proved for it. The protocol theorems are stated for every group meeting these laws | the library computes these functions; `compress` is written for the representative with `Z = 1` |
| `password-hash` | parameter `hash : Params -> Salt -> Bytes -> Except e (Option Bytes)` | none (deterministic) |
| `scrypt::Params`, `ParamsString` (examples only, C80) | text format `ln=..,r=..,p=..`, `from_str`, `get_str`, `str::parse` (`Aucpace/Scrypt`); `Params::new` and the hash are parameters in C80 | written from knowledge of scrypt 0.11.0 and password-hash 0.5.0, whose sources were not available for comparison |
| `scrypt::scrypt`, `salsa20`, `pbkdf2`, `Params::new`, `Scrypt::hash_password_customized` (C87 to C89) | `Basic/Scrypt`, `Aucpace/Default`; the working buffers are lists of blocks, running out of memory is not modelled | written from knowledge of scrypt 0.11.0, salsa20 0.10.2 and pbkdf2 0.12.2, whose sources were not available for comparison; proved equal to RFC 7914 (`Basic/ScryptSpec`) and checked against its vectors |
| `subtle` | `ct_eq` on bytes and slices | written from knowledge of subtle 2.6.1; operations on bytes take the same time for all bytes and the compiler keeps the loop (C81) |
| `SaltString`, base64ct | concrete unpadded base64 with the length bounds | none |
| `serde` + `bincode` | concrete encoding of the message enums | the table of field encodings in `Aucpace/Wire.lean`; postcard as well, whose numbers have several accepted forms (`Aucpace/Varint.lean`) |
| user database | parameter; a lawful map for history theorems | the `Database` contract (a stored value is returned by the next lookup) |

`usize` additions of lengths are taken not to overflow (slice lengths are at most `isize::MAX`).

Not modelled: timing behaviour except for the comparisons in C81 and the operations of the AuCPace server in C103, zeroisation, `Clone`/`Default` derives, README examples, the `std::error::Error` impls (no
behaviour), connecting and printing in the examples (their threads are programs joined by two byte streams, `Basic/Stream`).

## Modules

* `Verif/Basic/*`: bytes, `Res`, big-endian integers, digests, base64, UTF-8, SHA-1/2, HMAC/HKDF, random generators, counting of
  generator outputs (`Uniform`, `Tape`), two programs joined by byte streams (`Stream`).
* `Verif/Srp/{Model,Spec,Lemmas,Props,Groups,GroupsPrime,SafePrime,Vectors}`
* `Verif/Ecpp/Step`: Goldwasser-Kilian criterion with a fast kernel evaluation of one step; `Verif/Ecpp/Cert*`: certificates
  (generated outside, checked by the kernel) for `(N-1)/2` of the built-in SRP groups.
* `Verif/Ed25519/{Primes,Edwards,Curve,Compute,Order}`: primes with certificates, complete group law, curve with compression,
  evaluation in projective coordinates for the kernel, order of the group and of the constants.
* `Verif/Spake2/{Model,Spec,Lemmas,Props,Generic,Uniform,Vectors}`
* `Verif/Ristretto/{Even,Group,Encode,Elligator,Compute,Vectors,Props,Run,Count,PropsCount}`: ristretto255; `Run` evaluates a whole login
  over it, `Count` bounds the fibres of the map from strings.
* `Verif/Aucpace/{Group,Model,Spec,Lemmas}`; `Run` (order of API calls in an exchange) with `RunLemmas`; `World` (concrete values for
  examples); `PropsAgree`, `PropsAuth`, `PropsPairs`, `PropsMisc`, `Sessions`, `Wire`, `Uniform`, `Fresh`, `Passive`, `Compromise`, `Clients` (properties);
  `Examples`, `ExamplesLemmas`, `PropsExamples` (the programs under `aucpace/examples`)
* `Verif/Errors`: the texts of all errors.
* `Verif/Contribute`: two sessions with the same received values (C72).
* `Verif/Basic/Pi`, `Verif/Srp/GroupsPi`: binary digits of pi by the formula of Machin, the definition of the moduli (C70).
* `Verif/Spake2/Constants`: the derivation of the blinding elements (C71).
* `Verif/Srp/Stolen`, `Verif/Aucpace/Stolen`: what a stolen verifier is good for (C78).
* `Verif/Release`: when a value that confirms password guesses is released (C79).
* `Verif/Aucpace/WireNames`: formats that write the names of variants (C52).
* `Verif/Srp/Consistent`: how many verifiers are consistent with a public value (C82).
* `Verif/Spake2/Torsion`: components of small order in the peer's element (C83).
* `Verif/Basic/Game`, `Verif/Aucpace/Guessing`, `Verif/Spake2/Guessing`: the chances of an active attacker (C84).
* `Verif/Aucpace/Threads`: one thread of an example program against any peer (C85).
* `Verif/Basic/Prepare`, `Verif/Aucpace/Precompute`: preparing a dictionary before the database is stolen (C86).
* `Verif/Basic/Scrypt`, `Verif/Basic/ScryptSpec`: scrypt as in the crate and as in RFC 7914 (C87).
* `Verif/Aucpace/Default`, `PropsDefault`: the default instantiation with scrypt, SHA-512 and ristretto255 (C87 to C89).
* `Verif/Spake2/Repeated`, `Verif/Srp/Repeated`, `Verif/Aucpace/Repeated`: sessions that share a random value (C90).
* `Verif/Basic/Oracle`, `Verif/Aucpace/Oracle`, `Verif/Srp/Oracle`, `Verif/Spake2/Oracle`: attackers that ask for hash values, and sessions whose hash values are drawn at random (C91). The random oracle is not an axiom: the hash function is any function, the values that belong to the session are replaced by a draw (`Digest.program`), and the theorems count draws. An attacker (`Asker`) is a finite tree of questions without randomness of its own; for a randomised one fix the coins. In SPAKE2 the hash of the transcript is made a parameter (`finishWith`, equal to the model's function with SHA-256); the derivation of the password scalar is left as it is.
* `Verif/Aucpace/Secret`: the 64-bit secret of `AuCPaceServer` (C92). `Verif/Aucpace/Blinding`: the number of generator outputs for which the blinding loop of the strong client is still running (C56).
* `Verif/Basic/Tests`, `Verif/Srp/Tests`, `Verif/Spake2/Tests`, `Verif/Aucpace/Tests`: the repository's test functions as programs (C93).
* `Verif/Basic/Confirm`, `Verif/Aucpace/Confirm`, `Verif/Spake2/Confirm`: algebraic attackers that go on testing after the sessions, by the Schwartz–Zippel lemma (C94). The attacker is a function from the outcomes so far to the factors of the next sum of multiples: it uses neither the encodings of elements nor the bytes of hash values, except through the test.
* `Verif/Basic/Guess`, `Verif/Aucpace/Guess`, `Verif/Spake2/Guess`: algebraic attackers that see the keys of the sessions, ask a hash function drawn at random and name a candidate (C95). In contrast to C94 the attacker has the bytes of hash values and keys and may choose its next step by them; it still does not compute with the encodings of elements. It asks for the hash only of strings built from elements it has computed (other strings of that length are not asked for), sends well-formed elements only, and the SPAKE2 passwords and identities must not have the length of a transcript (160 or 192 bytes), since the hash function is drawn at strings of these lengths.
* `Verif/Aucpace/Tamper`: the explicit exchange over a network that replaces the public keys and blinded elements (C96).
* `Verif/Spake2/Keys`, `Verif/Aucpace/Keys`: the keys of sessions compared with values of a second random function, for an algebraic attacker that knows the passwords (C97). SPAKE2: the constants M, N and S count as elements with unknown logarithms; the attacker may add points of small order to what it sends, except to a point made from a known scalar (hypothesis `hA`), and for the symmetric sides it asks for transcripts with the two messages in order, since no session hashes others. AuCPace: generators and public keys are elements with unknown logarithms; the attacker asks for first session keys, everything later follows from these.
* `Verif/Basic/Auth`, `Verif/Aucpace/Impostor`: an algebraic attacker that wants to be accepted by clients and servers with explicit mutual authentication (C98). The generators are elements with unknown logarithms; first session keys, authenticators and session keys are drawn at random for the session ids of the game (`drawn`), the rest of the hash function is fixed. A session takes one element and one authenticator, as the types of the code enforce. `Basic/Auth` has the game with tags in place of authenticators; `win_of_accepted` is the simulation.
* `Verif/Basic/Touch`, `Verif/Srp/Guessing`: an attacker without computational bound against SRP servers (C99). The hash function is drawn for all inputs up to a length, except the input of `k` (`drawn`); verifiers are given numbers, so the hashes for `x` are not part of the game. A session answers one reply; the code lets a caller process several with the same private value, which would give one try each. `Basic/Touch` counts functions that have a value in a small set at a point a process has not looked at before.
* `Verif/Basic/Attack`, `Verif/Aucpace/Unbounded`, `Verif/Spake2/Unbounded`: the attacker of C84 with a drawn hash function instead of the exceptions for collisions (C100). The hash that gives the AuCPace generators, and for SPAKE2 the hashes of password and identities, keep their values; generators of different candidates must differ, and so must the hashes of the SPAKE2 candidates. The attacker sees all public keys at the start and may reply in any order; each session takes one message, as in the code, whose methods consume the state.
* `Verif/Failure`: counts of the generator outputs for which an honest login fails (C101). Nonces, registration and blinding value are arbitrary but fixed; the hash is as given except for its answer to the query for the CPace generator, which is counted over.
* `Verif/Aucpace/Nobody`: the attacker of C100 against sessions of unknown users (C102). In the strong variants only the cases in which no session is refused because of its blinded point are counted as successes.
* `Verif/Aucpace/Work`: the server with a record of the operations that take time (C103). One operation is taken to need the same time for all operands of the same length, and a database the same time for all users.
* `Verif/Spake2/Debug`: the alternate form of the debug output (C30).
* `Verif/First`: false servers with an oracle for discrete logarithms (C104).
* `Verif/Timing`: the checks of proofs and authenticators with a record of what can be observed (C81).
* `Verif/Aucpace/Scrypt`, `PropsScrypt`: the scrypt parameters of the example programs as text (C80).
* `Verif/Replay`: pairs of sessions under an arbitrary network (C76).
* `Verif/Forward`: leaked passwords and past sessions (C77).
* `Verif/OneGuess`: sessions of one side with equal messages (C69).

`Vectors` modules evaluate published test vectors in the model. They test the transcription and are not claimed as proofs.

## Plan per property

| id | modelled | proof |
|---|---|---|
| C01 | SRP client/server functions on `Nat` | premaster identity in `ZMod n`, then transcripts coincide |
| C02 | `process_reply` both sides | exact case split of `Res` |
| C03 | `verify_*` | list equality |
| C04 | `process_reply`, `verify_*` | cancel the common prefix of the hash inputs; collision named explicitly |
| C05 | `from_bytes_be` | leading zeros vanish in the integer |
| C06 | every partial operation | case analysis; built-in groups by kernel evaluation |
| C07 | specification in `Srp/Spec.lean` over `ZMod n`/`Int` | refinement |
| C08 | spec `uRfc` with padding | equality iff bytes agree; negation witness |
| C09 | `compute_m1` | partial (equal lengths) + negation witness |
| C10 | `compute_identity_hash` | split at first `:`; negation witness |
| C11 | constants transcribed from `.bin` | kernel evaluation; Euler criterion and Pocklington-type argument |
| C12 | `compute_public_ephemeral` | minimality of encoding; coprimality |
| C13 | `process_reply` | negation: acceptance with verifier only when u = 0; the secret depends on the verifier otherwise |
| C14 | `key` | negation witness; key = encoding of S |
| C15 | `compute_premaster_secret` | zero absorbs; no zero divisors modulo a prime |
| C16-C17 | SPAKE2 generic over `Group`, instantiated with Ed25519 | group algebra; constants have order l |
| C18-C20 | `finish` with all partial operations | case analysis |
| C21-C23 | `hash_ab`, `hash_symmetric` | fixed-width fields, sorted pair, injective encoding |
| C24-C25 | `finish` on own messages | case analysis |
| C26 | message as a function of the scalar | translation bijection in the cyclic subgroup |
| C27 | constants | kernel evaluation of decompression and scalar multiplication |
| C28 | `ed25519_hash_to_scalar` | little-endian value of reversed bytes |
| C29 | spec of transcript | refinement |
| C30 | `Debug` impls, `{:?}` and `{:#?}` | functional dependence; negation witness for hex |
| C31 | `finish` | negation with explicit element |
| C32-C34 | AuCPace client/server state machines | group algebra |
| C35 | each entry point | case analysis; negation for fixed-buffer strong client |
| C36-C38 | two arbitrary runs | peel off the hash layers, collisions explicit |
| C39 | domain separation by 4-byte prefix | injectivity |
| C40-C43 | functions | case analysis |
| C44 | `lookup_failed*` | dependence on secret and user only |
| C45 | same | negation by lengths |
| C46 | `start_augmentation_strong` | bijection on non-zero scalars |
| C47 | same | negation witnesses |
| C48 | all partial operations | case analysis |
| C49 | database as a map, histories as lists | induction |
| C50 | multi-session server as a labelled transition system | induction over schedules, projection |
| C51-C52 | bincode and postcard models | round trip; the exact set of accepted inputs; negation witness |
| C53 | key generation | algebra |
| C54 | spec | refinement |
| C55 | base64 | round trip by induction on 3-byte groups |
| C56 | loop as fuelled/partial draw | induction on the stream |
| C57-C58 | constructors and key generation with a generator that hands out given bytes | counting residues of 64-byte strings; bijections of the scalars |
| C59 | `Verif/Ristretto` | exact relation between string and point; instances of C32, C33 |
| C60 | constants | elliptic-curve primality certificates for `(N-1)/2`, then C11 |
| C61 | sequences of calls on a server whose generator hands out a given tape | induction; counting tapes |
| C62 | SRP functions on `Nat` | orders in the cyclic group of nonzero residues |
| C63 | example threads as reactive programs, streams cut arbitrarily | invariant over reachable states; witness of the deadlock |
| C64 | byte strings | lengths and append injectivity |
| C65 | records of options | cases |
| C66 | straight-line program | round trip of C51, then C32 |
| C67 | `Display` of the three error types | strings with a common prefix and suffix; classification theorems C02, C03, C18 |
| C68 | Elligator map and `from_uniform_bytes`; the digest with one answer replaced | quadratics in `r` for a given `s²`, cosets of the 4-torsion, encodings of a field element; then C32/C33 |
| C69 | CPace states of two runs of one side with equal messages; SRP premaster secret | cancel scalars, then generators; exponents of an element of large order |
| C70 | the embedded moduli; the real number pi | alternating series of arctan with fixed-point bounds, kernel evaluation |
| C71 | the decoded constants; HKDF-SHA256 and the curve | kernel evaluation, Euler's criterion for the skipped numbers |
| C72 | states of two sessions with the same received values; shared elements | cancel the received point; counting of residues |
| C73 | all messages of a login with implicit authentication; openings of SPAKE2 sessions | bijection of tuples of scalars; counting of tuples of residues |
| C74 | server states of two sessions of one user, a client that starts at the CPace substep | C36; the string is a function of `x` and the verifier; counting of residues |
| C75 | client session as a labelled transition system with arbitrary arguments | rank function, case analysis of calls |
| C76 | pairs of client and server sessions run through arbitrary calls; pairs of SRP sessions | SSID invariant along runs, injectivity of the hash inputs |
| C77 | functions from public values to keys or to hashed strings | algebra of blinded exponents, injectivity of the hashed strings |
| C78 | one server session against every strategy of an attacker with the verifier | closed form of the server's key, discrete logarithms in safe-prime groups, C36 |
| C79 | any call sequence on a server session; an SRP server whose client was refused | induction over the calls; C01 and C04 for the guesses |
| C80 | all scrypt parameters in the range of their types; users without a database entry | decimal and split lemmas; C38_credentials, C44, C66 |
| C81 | pairs of checks with equal lengths and outcome | `ct_eq` of subtle with a trace, induction over the loop |
| C82 | one public value of the server and all verifiers | the verifiers are the image of the powers of `g` under an affine map |
| C83 | one session against a peer that adds a point of small order | structure of the curve group (`Ed25519/Order`), injectivity of the transcript |
| C84 | attackers as functions of the history; counting of candidates and generator outputs | injectivity of the world given the messages (`Basic/Game`), C69, C21 |
| C85 | threads fed with the chunks their reads return | inversion of each of the four steps |
| C86 | algebraic attackers: sums of multiples of the elements held, answers appended | rank of the formal queries, few zeros of a non-zero form |
| C87 | all inputs, log_n up to 32 | in-place rounds as row and column rounds, loop invariant of the block mix; RFC vectors as checks |
| C88 | all inputs; generator arbitrary | C87, C80, C32, C33, decoding inverts encoding and conversely |
| C89 | all inputs | HMAC block, named collisions of SHA-256 |
| C90 | all inputs | one equation in the group; the generator has prime order; field arithmetic modulo N |
| C91 | all attackers | up to the question for the shared secret the answers do not depend on the draw; counting; exchange of two draws |
| C92 | all databases, users, secrets and sessions | two servers over one database; image of the 64-bit values; search; splitting of the input into its first four bytes and the rest |
| C93 | all inputs of the test functions | the tests' programs rewritten to the protocol theorems (C01, C16–C25, C32–C35, C41, C62, C88) |
| C94 | all strategies of an algebraic attacker, all values of the unknowns counted | comparison of the real run with the run in which only polynomial identities hold; Schwartz–Zippel at the first difference |
| C95 | all strategies of an algebraic attacker with a random oracle, all values of the unknowns and all hash functions counted | lazy sampling; comparison of the real run with one in which every secret is a fresh class; Schwartz–Zippel at the first difference |
| C96 | all replacements by the network, all states | algebra in the one-dimensional space of elements; outcome of the exchange in closed form |
| C97 | all strategies, all sets of histories, shares of all unknowns and hash functions | both games agree with one in which every secret is a fresh class until a polynomial of degree two vanishes; Schwartz–Zippel |
| C98 | all strategies, shares of all unknowns and hash functions | formal run as in C97; the tags at a session's secret are exchanged with fresh ones, the run that does not see them finds them in at most T of |Out| cases |
| C99 | all strategies, shares of all candidates, private values and hash functions | with all replies refused, public values, hash function and session determine the candidate unless a look at the hash function gives one of few values |
| C100 | all strategies, shares of all candidates, generator outputs and hash functions | with all replies refused, public keys, hash function and session determine the candidate unless a look at the hash function gives one of few values |
| C101 | counts of generator outputs and hash answers | a failing login has a zero scalar or a neutral generator; each is counted with C68 and the residue count |
| C102 | attacker as an arbitrary function, hash function and random bytes counted | public keys and hash function determine the private key of a session that accepts, and with it the generator; few strings have the same generator (union bound over sets of 1024 strings with C68) |
| C103 | all inputs | server with recorded operations, shown to return what the model returns; the records computed; counts of products compared |
| C104 | all inputs | false server as a program over the client's own functions; the run with the client's password reproduces the proof; an earlier hit has the same key or collides |

Properties whose text ends with a parenthesis "(False ...)" are not true of the code; for them the negation is proved with a
witness and the part that holds is kept as a `_partial` theorem.

## Where the code differs from its documentation or from what one would expect

* srp: `u` and `M1` are not computed with padding as in RFC 5054 and username, salt are not delimited (C08-C10); the key is the
  hash-free premaster secret (C14).
* spake2: an element of the peer that makes the shared point neutral is not refused (C31); a reflected message is accepted in
  symmetric mode (C25); components of small order are not removed and reach the shared element (C83); `Group::TranscriptHash` is not used, SHA-256 is fixed in `hash_ab`/`hash_symmetric`; a `Group` whose
  elements are not 32 bytes long makes the transcript functions panic (C20); `Debug` prints hex without padding and identities
  without escaping (C30).
* aucpace: the fixed-buffer strong client does not check the unblinded salt point (C35); answers for unknown users differ in
  length from those for known users (C45); and take fewer products in the group (C103); username and password are joined without delimiter in the strong point (C47); message numbers depend on the feature `strong_aucpace` (C52); the public keys are hashed neither into the key nor into the authenticators, so that a network may multiply both by the same number unnoticed (C96); the documentation
  of the password-too-long error names the `*_alloc` functions, which are the ones that cannot return it.
* aucpace examples: `recv!` decodes the first message of whatever one read returns and drops the rest; the client writes its nonce
  and its username without waiting, so both may arrive in one read and then both programs wait for ever (C63). A read that ends inside a message makes the
  next read decode from the middle of it: a client with a suitable username makes the server look up another user
  (`C63_confusion`; the client still needs that user's password). `SingleUserDatabase`
  keeps the long-term key pair when another user is registered (C65). The scrypt output length is not part of the stored parameters, and
  the clients panic on the empty parameters that the server sends for unknown users (C80).
* With the default hasher scrypt a password with zero bytes appended is accepted in place of the registered one, as long as
  `username:password` has at most 64 bytes, because it becomes an HMAC key (C89); not in the strong variants.
