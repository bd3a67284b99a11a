{
 "claims": [
  {
   "property": "C01",
   "status": "proved",
   "theorems": [
    "Verif.Srp.C01_srp_agreement"
   ],
   "note": "Any digest, any group with N>1 and g coprime to N."
  },
  {
   "property": "C02",
   "status": "proved",
   "theorems": [
    "Verif.Srp.C02_server_rejects_exactly",
    "Verif.Srp.C02_client_rejects_exactly",
    "Verif.Srp.C02_client_rejects_multiples"
   ],
   "note": "Exact characterisation of errors on both sides."
  },
  {
   "property": "C03",
   "status": "proved",
   "theorems": [
    "Verif.Srp.C03_verifyClient_exact",
    "Verif.Srp.C03_verifyServer_exact",
    "Verif.Srp.C03_honest_proofs_unique"
   ],
   "note": ""
  },
  {
   "property": "C04",
   "status": "proved",
   "theorems": [
    "Verif.Srp.C04_server_accept_implies_same_key",
    "Verif.Srp.C04_client_accept_implies_same_key"
   ],
   "note": "Collisions are named explicitly."
  },
  {
   "property": "C05",
   "status": "proved",
   "theorems": [
    "Verif.Srp.C05_leading_zeros"
   ],
   "note": ""
  },
  {
   "property": "C06",
   "status": "proved",
   "theorems": [
    "Verif.Srp.C06_no_panic",
    "Verif.Srp.C06_server_panics_iff",
    "Verif.Srp.C06_client_panics_iff",
    "Verif.Srp.C06_client_functions_panic_iff",
    "Verif.Srp.Groups.C06_builtin_sane"
   ],
   "note": "Exact characterisation, including the seven built-in groups."
  },
  {
   "property": "C07",
   "status": "proved",
   "theorems": [
    "Verif.Srp.C07_wire_values",
    "Verif.Srp.C07_client_follows_spec",
    "Verif.Srp.C07_server_follows_spec"
   ],
   "note": "Refinement of a specification over ZMod N; test vectors in Srp/Vectors.lean."
  },
  {
   "property": "C08",
   "status": "partial",
   "theorems": [
    "Verif.Srp.C08_u_matches_rfc_iff_partial",
    "Verif.Srp.C08_u_padding_fails",
    "Verif.Srp.Vectors.C08_rfc_divergence_sha1_1024"
   ],
   "note": "False of the code: padding is missing. Negation proved (abstract witness, and SHA-1 with the 1024-bit group); the _partial theorem gives the exact condition under which u is the RFC value."
  },
  {
   "property": "C09",
   "status": "partial",
   "theorems": [
    "Verif.Srp.C09_proof_binds_transcript_partial",
    "Verif.Srp.C09_server_proof_binds_partial",
    "Verif.Srp.C09_transcript_ambiguous"
   ],
   "note": "False of the code in general (ambiguous concatenation, proved for every digest); holds for equal byte lengths."
  },
  {
   "property": "C10",
   "status": "partial",
   "theorems": [
    "Verif.Srp.C10_credentials_bound_partial",
    "Verif.Srp.C10_salt_bound",
    "Verif.Srp.C10_colon_ambiguous"
   ],
   "note": "False in general (':' separator), holds for usernames without ':'."
  },
  {
   "property": "C11",
   "status": "proved",
   "theorems": [
    "Verif.Srp.Groups.C11_builtin_wellformed",
    "Verif.Srp.Groups.C11_safe_prime_generator",
    "Verif.Srp.Groups.C11_builtin_generator"
   ],
   "note": "Kernel evaluation for all seven groups; N prime and g a generator follow from primality of (N-1)/2, which C60 proves."
  },
  {
   "property": "C12",
   "status": "proved",
   "theorems": [
    "Verif.Srp.C12_canonical",
    "Verif.Srp.C12_honest_client_never_rejected"
   ],
   "note": ""
  },
  {
   "property": "C13",
   "status": "partial",
   "theorems": [
    "Verif.Srp.C13_zero_u_accepted",
    "Verif.Srp.C13_nonzero_u_partial"
   ],
   "note": "The code does not have the check: negation proved. C13_nonzero_u_partial gives what holds without it: when u is zero, and that otherwise the secret depends on the verifier."
  },
  {
   "property": "C14",
   "status": "partial",
   "theorems": [
    "Verif.Srp.C14_key_is_premaster_partial",
    "Verif.Srp.C14_client_key_is_premaster_partial",
    "Verif.Srp.C14_key_not_hashed"
   ],
   "note": "False of the code: key() is the raw premaster secret. Negation proved; bounds on the key of either side kept as _partial."
  },
  {
   "property": "C15",
   "status": "proved",
   "theorems": [
    "Verif.Srp.C15_zero_secret_without_check",
    "Verif.Srp.C15_accepted_secret_nonzero"
   ],
   "note": ""
  },
  {
   "property": "C16",
   "status": "proved",
   "theorems": [
    "Verif.Spake2.C16_agreement",
    "Verif.Spake2.C16_agreement_rng"
   ],
   "note": "Concrete Ed25519 model, no assumption; for every scalar and for every generator."
  },
  {
   "property": "C17",
   "status": "proved",
   "theorems": [
    "Verif.Spake2.C17_agreement",
    "Verif.Spake2.C17_agreement_rng"
   ],
   "note": "As C16."
  },
  {
   "property": "C18",
   "status": "proved",
   "theorems": [
    "Verif.Spake2.C18_classification"
   ],
   "note": "Exact, with decodability stated by the curve equation."
  },
  {
   "property": "C19",
   "status": "proved",
   "theorems": [
    "Verif.Spake2.C19_start",
    "Verif.Spake2.C19_finish",
    "Verif.Spake2.C19_hash_ab",
    "Verif.Spake2.C19_hash_symmetric"
   ],
   "note": "Also the exact panic condition of the public hash functions."
  },
  {
   "property": "C20",
   "status": "partial",
   "theorems": [
    "Verif.Spake2.C20_agreement_partial",
    "Verif.Spake2.C20_agreement_symmetric_partial",
    "Verif.Spake2.C20_no_panic_partial",
    "Verif.Spake2.C20_negation",
    "Verif.Spake2.C20_witness"
   ],
   "note": "False for groups whose elements are not 32 bytes (negation for all of them, and a witness); the positive statement is proved for 32-byte groups. The crate's group is shown lawful."
  },
  {
   "property": "C21",
   "status": "proved",
   "theorems": [
    "Verif.Spake2.C21_binding",
    "Verif.Spake2.C21_mismatch"
   ],
   "note": "Collisions are named explicitly."
  },
  {
   "property": "C22",
   "status": "proved",
   "theorems": [
    "Verif.Spake2.C22_binding",
    "Verif.Spake2.C22_cross_mode"
   ],
   "note": "Also across modes."
  },
  {
   "property": "C23",
   "status": "proved",
   "theorems": [
    "Verif.Spake2.C23_no_malleability"
   ],
   "note": "Includes alternative encodings of one point."
  },
  {
   "property": "C24",
   "status": "proved",
   "theorems": [
    "Verif.Spake2.C24_roles"
   ],
   "note": "Both directions."
  },
  {
   "property": "C25",
   "status": "partial",
   "theorems": [
    "Verif.Spake2.C25_partial",
    "Verif.Spake2.C25_negation"
   ],
   "note": "False in symmetric mode (negation for every session); holds for A/B."
  },
  {
   "property": "C26",
   "status": "proved",
   "theorems": [
    "Verif.Spake2.C26_message_independent_of_password",
    "Verif.Spake2.C26_two_passwords"
   ],
   "note": "Exact: each subgroup encoding is sent by exactly one scalar, whatever the password."
  },
  {
   "property": "C27",
   "status": "proved",
   "theorems": [
    "Verif.Spake2.C27_constants",
    "Verif.Spake2.C27_cancellation"
   ],
   "note": "Kernel evaluation on the concrete curve."
  },
  {
   "property": "C28",
   "status": "proved",
   "theorems": [
    "Verif.Spake2.C28_password_scalar"
   ],
   "note": "HKDF-SHA256 concrete."
  },
  {
   "property": "C29",
   "status": "proved",
   "theorems": [
    "Verif.Spake2.C29_message",
    "Verif.Spake2.C29_key_a",
    "Verif.Spake2.C29_key_b",
    "Verif.Spake2.C29_key_symmetric"
   ],
   "note": "Refinement of a specification over points and numbers; the crate's test vectors are evaluated in Spake2/Vectors.lean."
  },
  {
   "property": "C30",
   "status": "partial",
   "theorems": [
    "Verif.Spake2.C30_secrecy",
    "Verif.Spake2.C30_partial",
    "Verif.Spake2.C30_hex_negation",
    "Verif.Spake2.C30_pair_negation",
    "Verif.Spake2.Debug.C30_pretty_secrecy",
    "Verif.Spake2.Debug.C30_role",
    "Verif.Spake2.Debug.C30_symmetric_partial",
    "Verif.Spake2.Debug.C30_roles_partial",
    "Verif.Spake2.Debug.C30_text",
    "Verif.Spake2.Debug.C30_pretty_negation"
   ],
   "note": "Secrecy proved; unambiguity is false for non-UTF-8 identities and for pairs (witnesses), proved for a single UTF-8 identity."
  },
  {
   "property": "C31",
   "status": "partial",
   "theorems": [
    "Verif.Spake2.C31_negation",
    "Verif.Spake2.C31_partial",
    "Verif.Spake2.C31_session_partial"
   ],
   "note": "False (negation for every session); the partial theorem shows that exactly eight elements per password can do it, the same for every scalar, and that an honest peer never sends one."
  },
  {
   "property": "C32",
   "status": "proved",
   "theorems": [
    "Verif.Aucpace.C32_agreement",
    "Verif.Aucpace.C32_same_key"
   ],
   "note": "Exact outcome of the honest run, for every group meeting the laws of Group.lean; ristretto255 is shown to meet them (C59)."
  },
  {
   "property": "C33",
   "status": "proved",
   "theorems": [
    "Verif.Aucpace.C33_agreement",
    "Verif.Aucpace.C33_same_key"
   ],
   "note": "Exact outcome; for every non-zero blinding value (C56)."
  },
  {
   "property": "C34",
   "status": "proved",
   "theorems": [
    "Verif.Aucpace.C34_client",
    "Verif.Aucpace.C34_server",
    "Verif.Aucpace.C34_runs"
   ],
   "note": ""
  },
  {
   "property": "C35",
   "status": "partial",
   "theorems": [
    "Verif.Aucpace.C35_public_keys",
    "Verif.Aucpace.C35_server_x",
    "Verif.Aucpace.C35_server_x_only",
    "Verif.Aucpace.C35_blinded",
    "Verif.Aucpace.C35_blinded_salt_alloc",
    "Verif.Aucpace.C35_blinded_salt_fixed_negation"
   ],
   "note": "False of the code for one entry: the fixed-buffer strong client accepts a neutral blinded salt (negation proved for all inputs). Proved for all other entries."
  },
  {
   "property": "C36",
   "status": "proved",
   "theorems": [
    "Verif.Aucpace.C36_state_lengths",
    "Verif.Aucpace.C36_server_accepts",
    "Verif.Aucpace.C36_any_channel"
   ],
   "note": "Collisions named explicitly; also without any assumption on the transport of the keys."
  },
  {
   "property": "C37",
   "status": "proved",
   "theorems": [
    "Verif.Aucpace.C37_client_accepts",
    "Verif.Aucpace.C37_any_channel"
   ],
   "note": ""
  },
  {
   "property": "C38",
   "status": "proved",
   "theorems": [
    "Verif.Aucpace.C38_credentials",
    "Verif.Aucpace.C38_wrong_password",
    "Verif.Aucpace.C38_credentials_strong",
    "Verif.Aucpace.C38_wrong_password_strong"
   ],
   "note": "Plain, partially augmented and both strong variants."
  },
  {
   "property": "C39",
   "status": "proved",
   "theorems": [
    "Verif.Aucpace.C39_roles",
    "Verif.Aucpace.C39_values",
    "Verif.Aucpace.C39_server_reflection",
    "Verif.Aucpace.C39_client_reflection"
   ],
   "note": ""
  },
  {
   "property": "C40",
   "status": "proved",
   "theorems": [
    "Verif.Aucpace.C40_server",
    "Verif.Aucpace.C40_client",
    "Verif.Aucpace.C40_match"
   ],
   "note": ""
  },
  {
   "property": "C41",
   "status": "proved",
   "theorems": [
    "Verif.Aucpace.C41_nonces",
    "Verif.Aucpace.C41_order",
    "Verif.Aucpace.C41_prestablished",
    "Verif.Aucpace.C41_begin"
   ],
   "note": ""
  },
  {
   "property": "C42",
   "status": "proved",
   "theorems": [
    "Verif.Aucpace.C42_register",
    "Verif.Aucpace.C42_login",
    "Verif.Aucpace.C42_login_strong"
   ],
   "note": "The strong login is stated with the exception of C35."
  },
  {
   "property": "C43",
   "status": "proved",
   "theorems": [
    "Verif.Aucpace.C43_scalar_from_hash",
    "Verif.Aucpace.C43_login_errors",
    "Verif.Aucpace.C43_register_errors"
   ],
   "note": ""
  },
  {
   "property": "C44",
   "status": "proved",
   "theorems": [
    "Verif.Aucpace.C44_answer",
    "Verif.Aucpace.C44_answer_strong",
    "Verif.Aucpace.C44_secret",
    "Verif.Aucpace.C44_no_login",
    "Verif.Aucpace.C44_no_acceptance"
   ],
   "note": ""
  },
  {
   "property": "C45",
   "status": "partial",
   "theorems": [
    "Verif.Aucpace.C45_salt_length_negation",
    "Verif.Aucpace.C45_distinguisher_negation",
    "Verif.Aucpace.C45_partial_aug_x_negation",
    "Verif.Aucpace.C45_plain_x_partial",
    "Verif.Aucpace.C45_strong_partial",
    "Verif.Aucpace.C45_strong_params_negation"
   ],
   "note": "False of the code: perfect distinguisher on the salt length proved, also constant X in the partially augmented variant and empty parameters. The _partial theorems give what remains."
  },
  {
   "property": "C46",
   "status": "proved",
   "theorems": [
    "Verif.Aucpace.C46_hiding",
    "Verif.Aucpace.C46_blinding_cancels"
   ],
   "note": ""
  },
  {
   "property": "C47",
   "status": "partial",
   "theorems": [
    "Verif.Aucpace.C47_concatenation_negation",
    "Verif.Aucpace.C47_shared_role_negation",
    "Verif.Aucpace.C47_equal_length_partial"
   ],
   "note": "False of the code twice (no separator; hash role shared with the CPace generator), both proved for all inputs; holds for usernames of equal length."
  },
  {
   "property": "C48",
   "status": "proved",
   "theorems": [
    "Verif.Aucpace.C48_client",
    "Verif.Aucpace.C48_server"
   ],
   "note": "Functions that the model has as total functions contain no operation that can panic."
  },
  {
   "property": "C49",
   "status": "proved",
   "theorems": [
    "Verif.Aucpace.C49_others",
    "Verif.Aucpace.C49_others_strong",
    "Verif.Aucpace.C49_login_local",
    "Verif.Aucpace.C49_latest",
    "Verif.Aucpace.C49_latest_strong",
    "Verif.Aucpace.C49_never_registered"
   ],
   "note": "Any storage honouring the Database contract; plain and strong variants; a superseded password is refused unless scalars or named hashes collide."
  },
  {
   "property": "C50",
   "status": "proved",
   "theorems": [
    "Verif.Aucpace.C50_isolation",
    "Verif.Aucpace.C50_secret",
    "Verif.Aucpace.C50_life",
    "Verif.Aucpace.C50_ended",
    "Verif.Aucpace.C50_one_key",
    "Verif.Aucpace.C50_explicit_key",
    "Verif.Aucpace.C50_order"
   ],
   "note": "Labelled transition system over any number of sessions, arbitrary schedules and inputs."
  },
  {
   "property": "C51",
   "status": "proved",
   "theorems": [
    "Verif.Aucpace.Wire.C51_client",
    "Verif.Aucpace.Wire.C51_server",
    "Verif.Aucpace.Wire.C51_stream",
    "Verif.Aucpace.Wire.C51_client_exact",
    "Verif.Aucpace.Wire.C51_server_exact",
    "Verif.Aucpace.Wire.C51_injective",
    "Verif.Aucpace.Wire.C51_server_stream",
    "Verif.Aucpace.Wire.C51_server_injective",
    "Verif.Aucpace.Wire.C51_layout_client",
    "Verif.Aucpace.Wire.C51_layout_server",
    "Verif.Aucpace.Wire.C51_text",
    "Verif.Aucpace.Wire.C51_postcard_numbers",
    "Verif.Aucpace.Wire.C51_postcard_client",
    "Verif.Aucpace.Wire.C51_postcard_server",
    "Verif.Aucpace.Wire.C51_postcard_client_five",
    "Verif.Aucpace.Wire.C51_postcard_server_five"
   ],
   "note": "bincode and postcard; acceptance characterised exactly for both. With postcard a message has at least five accepted forms (C51_postcard_client_five, C51_postcard_server_five)."
  },
  {
   "property": "C52",
   "status": "partial",
   "theorems": [
    "Verif.Aucpace.Wire.C52_partial",
    "Verif.Aucpace.Wire.C52_client_negation",
    "Verif.Aucpace.Wire.C52_server_negation",
    "Verif.Aucpace.Wire.C52_confusion_negation",
    "Verif.Aucpace.Wire.C52_named"
   ],
   "note": "False of the code for index-based formats: negation proved for every public key, authenticator and registration; the messages that do interoperate are in the _partial theorem. C52_named: formats that write variant names instead of numbers are not affected."
  },
  {
   "property": "C53",
   "status": "proved",
   "theorems": [
    "Verif.Aucpace.C53_matching_strong",
    "Verif.Aucpace.C53_mismatch_strong",
    "Verif.Aucpace.C53_matching",
    "Verif.Aucpace.C53_mismatch"
   ],
   "note": ""
  },
  {
   "property": "C54",
   "status": "proved",
   "theorems": [
    "Verif.Aucpace.C54_hashes",
    "Verif.Aucpace.C54_points"
   ],
   "note": ""
  },
  {
   "property": "C55",
   "status": "proved",
   "theorems": [
    "Verif.Aucpace.C55_salts",
    "Verif.Aucpace.C55_parse",
    "Verif.Aucpace.C55_injective",
    "Verif.Aucpace.C55_crate_salts"
   ],
   "note": "Parsing requires at least three bytes of salt (PHC minimum of four characters)."
  },
  {
   "property": "C56",
   "status": "proved",
   "theorems": [
    "Verif.Aucpace.C56_loop",
    "Verif.Aucpace.C56_nonzero",
    "Verif.Aucpace.C56_rare"
   ],
   "note": ""
  },
  {
   "property": "C57",
   "status": "proved",
   "theorems": [
    "Verif.Spake2.C57_constructors",
    "Verif.Spake2.C57_scalar_counts",
    "Verif.Spake2.C57_indistinguishable"
   ],
   "note": "Counts over all 64-byte generator outputs; no probability theory."
  },
  {
   "property": "C58",
   "status": "proved",
   "theorems": [
    "Verif.Aucpace.C58_client",
    "Verif.Aucpace.C58_server",
    "Verif.Aucpace.C58_each",
    "Verif.Aucpace.C58_server_keypair",
    "Verif.Aucpace.C58_blinded",
    "Verif.Aucpace.C58_neutral"
   ],
   "note": "The blinding theorem is about a first draw that is not zero."
  },
  {
   "property": "C59",
   "status": "proved",
   "theorems": [
    "Verif.Ristretto.C59_encoding",
    "Verif.Ristretto.C59_count",
    "Verif.Ristretto.C59_neutral",
    "Verif.Ristretto.C59_agreement",
    "Verif.Ristretto.C59_agreement_strong"
   ],
   "note": "The laws of the group, assumed by the other AuCPace theorems, are proved for ristretto255."
  },
  {
   "property": "C60",
   "status": "proved",
   "theorems": [
    "Verif.Srp.Groups.C60_safe_primes"
   ],
   "note": "Elliptic-curve primality certificates checked by the kernel."
  },
  {
   "property": "C61",
   "status": "proved",
   "theorems": [
    "Verif.Aucpace.C61_consecutive",
    "Verif.Aucpace.C61_nonces",
    "Verif.Aucpace.C61_keypairs",
    "Verif.Aucpace.C61_secret",
    "Verif.Aucpace.C61_session",
    "Verif.Aucpace.C61_session_partial_aug",
    "Verif.Aucpace.C61_session_strong",
    "Verif.Aucpace.C61_session_partial_strong",
    "Verif.Aucpace.C61_client"
   ],
   "note": "Generator modelled as a tape of bytes; counts over all tapes."
  },
  {
   "property": "C62",
   "status": "proved",
   "theorems": [
    "Verif.Srp.C62_orders",
    "Verif.Srp.C62_client_ephemeral",
    "Verif.Srp.C62_server_ephemeral",
    "Verif.Srp.C62_server_hiding",
    "Verif.Srp.C62_server_secret",
    "Verif.Srp.C62_client_secret",
    "Verif.Srp.C62_client_zero",
    "Verif.Srp.C62_builtin"
   ],
   "note": "Proved for all safe-prime groups; the built-in groups are among them by C60."
  },
  {
   "property": "C63",
   "status": "partial",
   "theorems": [
    "Verif.Aucpace.Examples.C63_partial",
    "Verif.Aucpace.Examples.C63_negation",
    "Verif.Aucpace.Examples.C63_confusion",
    "Verif.Aucpace.Examples.C63_strong_partial",
    "Verif.Aucpace.Examples.C63_strong_negation"
   ],
   "note": "Property is false of the code (C63_negation, C63_strong_negation); partial theorems cover one message per read, and reads of whole messages or parts of one. Missing: reads returning whole messages and part of another; C63_confusion shows what they can do (the server serves another user than the client named)."
  },
  {
   "property": "C64",
   "status": "proved",
   "theorems": [
    "Verif.Aucpace.Examples.C64_injective",
    "Verif.Aucpace.Examples.C64_direction",
    "Verif.Aucpace.Examples.C64_limits"
   ],
   "note": ""
  },
  {
   "property": "C65",
   "status": "proved",
   "theorems": [
    "Verif.Aucpace.Examples.C65_lookup_store",
    "Verif.Aucpace.Examples.C65_other_user_negation",
    "Verif.Aucpace.Examples.C65_keypair",
    "Verif.Aucpace.Examples.C65_inherited_keypair_negation",
    "Verif.Aucpace.Examples.C65_fixed"
   ],
   "note": ""
  },
  {
   "property": "C66",
   "status": "proved",
   "theorems": [
    "Verif.Aucpace.Examples.C66_no_std"
   ],
   "note": "Hasher parameters are assumed to survive the way through their string form."
  },
  {
   "property": "C67",
   "status": "proved",
   "theorems": [
    "Verif.Errors.C67_srp",
    "Verif.Errors.C67_srp_calls",
    "Verif.Errors.C67_spake2",
    "Verif.Errors.C67_aucpace"
   ],
   "note": "The text of password_hash::Error is a parameter."
  },
  {
   "property": "C68",
   "status": "proved",
   "theorems": [
    "Verif.Ristretto.C68_map",
    "Verif.Ristretto.C68_image",
    "Verif.Ristretto.C68_generator",
    "Verif.Ristretto.C68_strong_point",
    "Verif.Ristretto.C68_map_collision",
    "Verif.Ristretto.C68_login",
    "Verif.Ristretto.C68_strong_login"
   ],
   "note": "Counts answers of the hash to one query with all others fixed; the strong login theorem assumes that the credentials are not themselves that query (cf. C47)."
  },
  {
   "property": "C69",
   "status": "proved",
   "theorems": [
    "Verif.Aucpace.C69_server",
    "Verif.Aucpace.C69_server_implicit",
    "Verif.Aucpace.C69_client",
    "Verif.Aucpace.C69_client_implicit",
    "Verif.Aucpace.C69_verifier",
    "Verif.Aucpace.C69_scalar",
    "Verif.Aucpace.C69_server_login",
    "Verif.Srp.C69_srp"
   ],
   "note": "Holds up to explicitly named hash collisions; the SRP part fixes the scrambling parameter, because an arbitrary hash may make it depend on the private value in any way."
  },
  {
   "property": "C70",
   "status": "proved",
   "theorems": [
    "Verif.Srp.Groups.C70_moduli"
   ],
   "note": "The digits of pi are computed in the kernel by the formula of Machin with proved error bounds. The moduli with 1024, 1536 and 2048 bits have no such published definition and are not covered here; that they are safe primes is C60, and the RFC 5054 vectors with the 1024-bit group are checked in Verif/Srp/Vectors."
  },
  {
   "property": "C71",
   "status": "proved",
   "theorems": [
    "Verif.Spake2.C71_derivation",
    "Verif.Spake2.C71_unique",
    "Verif.Spake2.C71_total"
   ],
   "note": "The derivation procedure is written down from python-spake2, which is not part of the repository."
  },
  {
   "property": "C72",
   "status": "proved",
   "theorems": [
    "Verif.Aucpace.C72_server",
    "Verif.Aucpace.C72_server_implicit",
    "Verif.Aucpace.C72_client",
    "Verif.Aucpace.C72_client_implicit",
    "Verif.Aucpace.C72_shared",
    "Verif.Spake2.C72_spake2",
    "Verif.Spake2.C72_spake2_shared"
   ],
   "note": "For SRP the scrambling parameter depends on the private value; the part with a fixed parameter is in C62."
  },
  {
   "property": "C73",
   "status": "proved",
   "theorems": [
    "Verif.Aucpace.C73_passive",
    "Verif.Aucpace.C73_passive_strong",
    "Verif.Spake2.C73_spake2"
   ],
   "note": "With explicit authentication the authenticators determine the password for an unbounded attacker; the claim for them is computational and not modelled. The salt and secret exponent are drawn independently of the password and are equal in both worlds."
  },
  {
   "property": "C74",
   "status": "proved",
   "theorems": [
    "Verif.Aucpace.C74_partial_aug",
    "Verif.Aucpace.C74_partial_strong",
    "Verif.Aucpace.C74_fresh_x",
    "Verif.Aucpace.C74_rare"
   ],
   "note": "The documentation of the partial variants mentions the decreased security after a server compromise."
  },
  {
   "property": "C75",
   "status": "proved",
   "theorems": [
    "Verif.Aucpace.C75_ended",
    "Verif.Aucpace.C75_one_key",
    "Verif.Aucpace.C75_explicit_key",
    "Verif.Aucpace.C75_order"
   ],
   "note": "A blinding loop that never ends (all draws zero) is a call that does not return."
  },
  {
   "property": "C76",
   "status": "proved",
   "theorems": [
    "Verif.Aucpace.C76_server",
    "Verif.Aucpace.C76_client",
    "Verif.Aucpace.C76_server_replay",
    "Verif.Aucpace.C76_client_replay",
    "Verif.Aucpace.C76_implicit",
    "Verif.Aucpace.C76_prestablished",
    "Verif.Srp.C76_srp_server",
    "Verif.Srp.C76_srp_length_negation",
    "Verif.Srp.C76_srp_client"
   ],
   "note": "For SRP, public values of different lengths are not separated in the proof (C09), so only the equality of the concatenated strings is claimed there; C76_srp_length_negation shows in a small safe-prime group that the condition on the lengths is needed."
  },
  {
   "property": "C77",
   "status": "proved",
   "theorems": [
    "Verif.Spake2.C77_spake2",
    "Verif.Aucpace.C77_aucpace",
    "Verif.Srp.C77_srp"
   ],
   "note": "Hardness of the Diffie-Hellman problem is not modelled. The attacker sees the public values but no proofs or authenticators, which the transformation could not produce."
  },
  {
   "property": "C78",
   "status": "proved",
   "theorems": [
    "Verif.Srp.C78_known_exponent",
    "Verif.Srp.C78_predicted",
    "Verif.Srp.C78_diffie_hellman",
    "Verif.Aucpace.C78_aucpace"
   ],
   "note": ""
  },
  {
   "property": "C79",
   "status": "proved",
   "theorems": [
    "Verif.Aucpace.C79_aucpace",
    "Verif.Aucpace.C79_aucpace_refused",
    "Verif.Srp.C79_srp"
   ],
   "note": ""
  },
  {
   "property": "C80",
   "status": "proved",
   "theorems": [
    "Verif.Aucpace.Scrypt.C80_round_trip",
    "Verif.Aucpace.Scrypt.C80_length_lost",
    "Verif.Aucpace.Scrypt.C80_accepted",
    "Verif.Aucpace.Scrypt.C80_parse",
    "Verif.Aucpace.Scrypt.C80_no_std",
    "Verif.Aucpace.Scrypt.C80_other_length",
    "Verif.Aucpace.Scrypt.C80_unknown_user"
   ],
   "note": "The behaviour of scrypt::Params, ParamsString and str::parse is an assumption (DESIGN.md): the crates are not part of the repository. C80_length_lost and C80_unknown_user show what does not survive."
  },
  {
   "property": "C81",
   "status": "proved",
   "theorems": [
    "Verif.Timing.C81_ct_eq",
    "Verif.Timing.C81_srp",
    "Verif.Timing.C81_client",
    "Verif.Timing.C81_server",
    "Verif.Timing.C81_early_exit"
   ],
   "note": "Timing is modelled as a record of branches, positions and lengths; what the compiler and the processor make of it is not. The record is written by hand beside the functions, whose results are proved to be those of the model."
  },
  {
   "property": "C82",
   "status": "proved",
   "theorems": [
    "Verif.Srp.C82_consistent",
    "Verif.Srp.C82_generator",
    "Verif.Srp.C82_square",
    "Verif.Srp.C82_builtin"
   ],
   "note": "That N does not divide k is a hypothesis; examples decide it for SHA-1, SHA-256 and SHA-512 with the 1024-bit group, SHA-256 with the 2048-bit and SHA-512 with the 6144-bit group."
  },
  {
   "property": "C83",
   "status": "proved",
   "theorems": [
    "Verif.Spake2.C83_split",
    "Verif.Spake2.C83_bits",
    "Verif.Spake2.C83_honest"
   ],
   "note": ""
  },
  {
   "property": "C84",
   "status": "proved",
   "theorems": [
    "Verif.Aucpace.C84_server",
    "Verif.Aucpace.C84_server_strong",
    "Verif.Aucpace.C84_attained",
    "Verif.Aucpace.C84_attained_count",
    "Verif.Aucpace.C84_zero_draws",
    "Verif.Spake2.C84_spake2",
    "Verif.Spake2.C84_spake2_attained"
   ],
   "note": "SRP has no such bound in this form: the attacker chooses A and the secrets of different verifiers can coincide (C69_srp bounds how often); C99 gives a bound when the hash function is drawn at random. The AuCPace client sends its authenticator first, from which an unbounded attacker finds the password. C100 gives the bound without the exceptions for collisions, when the hash function is drawn at random."
  },
  {
   "property": "C85",
   "status": "proved",
   "theorems": [
    "Verif.Aucpace.Examples.C85_server",
    "Verif.Aucpace.Examples.C85_client",
    "Verif.Aucpace.Examples.C85_four_reads"
   ],
   "note": ""
  },
  {
   "property": "C86",
   "status": "proved",
   "theorems": [
    "Verif.Aucpace.C86_plain",
    "Verif.Aucpace.C86_strong_one",
    "Verif.Aucpace.C86_strong",
    "Verif.Aucpace.C86_strong_attained"
   ],
   "note": "The points of the candidates are counted over all discrete logarithms (the hash to the group idealised as random); the attacker is algebraic, its coefficients do not depend on the encodings of elements. X and the later messages of a session add nothing for fixed generator outputs: X is a multiple of the base point."
  },
  {
   "property": "C87",
   "status": "proved",
   "theorems": [
    "Verif.Aucpace.Scrypt.C87_scrypt",
    "Verif.Aucpace.Scrypt.C87_integerify",
    "Verif.Aucpace.Scrypt.C87_params"
   ],
   "note": ""
  },
  {
   "property": "C88",
   "status": "proved",
   "theorems": [
    "Verif.Aucpace.Scrypt.C88_new",
    "Verif.Aucpace.Scrypt.C88_register",
    "Verif.Aucpace.Scrypt.C88_register_strong",
    "Verif.Aucpace.Scrypt.C88_other_length",
    "Verif.Aucpace.Scrypt.C88_login",
    "Verif.Aucpace.Scrypt.C88_login_strong",
    "Verif.Aucpace.Scrypt.C88_client"
   ],
   "note": "OsRng is an arbitrary generator. log_n above 32 is left out because there the crate does not compute scrypt (C87); such parameters need more than 2^40 bytes of memory."
  },
  {
   "property": "C89",
   "status": "proved",
   "theorems": [
    "Verif.Aucpace.Scrypt.C89_same",
    "Verif.Aucpace.Scrypt.C89_only",
    "Verif.Aucpace.Scrypt.C89_zeros",
    "Verif.Aucpace.Scrypt.C89_long",
    "Verif.Aucpace.Scrypt.C89_login",
    "Verif.Aucpace.Scrypt.C89_strong"
   ],
   "note": ""
  },
  {
   "property": "C90",
   "status": "proved",
   "theorems": [
    "Verif.Srp.C90_verifier",
    "Verif.Srp.C90_dictionary",
    "Verif.Srp.C90_difference",
    "Verif.Aucpace.C90_blinded",
    "Verif.Spake2.C90_spake2",
    "Verif.Spake2.C90_known",
    "Verif.Spake2.C90_linked",
    "Verif.Spake2.C90_roles"
   ],
   "note": ""
  },
  {
   "property": "C91",
   "status": "proved",
   "theorems": [
    "Verif.Srp.C91_srp_drawn",
    "Verif.Srp.C91_srp",
    "Verif.Aucpace.C91_drawn",
    "Verif.Aucpace.C91_find",
    "Verif.Aucpace.C91_distinguish",
    "Verif.Aucpace.C91_attained",
    "Verif.Spake2.C91_spake2_drawn",
    "Verif.Spake2.C91_spake2_find",
    "Verif.Spake2.C91_spake2",
    "Verif.Spake2.C91_spake2_attained"
   ],
   "note": ""
  },
  {
   "property": "C92",
   "status": "proved",
   "theorems": [
    "Verif.Aucpace.C92_restart",
    "Verif.Aucpace.C92_tables",
    "Verif.Aucpace.C92_every_secret",
    "Verif.Aucpace.C92_search",
    "Verif.Aucpace.C92_tells",
    "Verif.Aucpace.C92_strong",
    "Verif.Aucpace.C92_overlap",
    "Verif.Aucpace.C92_overlap_count"
   ],
   "note": ""
  },
  {
   "property": "C93",
   "status": "proved",
   "theorems": [
    "Verif.Srp.C93_srp_auth",
    "Verif.Srp.C93_srp_good",
    "Verif.Srp.C93_srp_good_rare",
    "Verif.Srp.C93_srp_bad_public",
    "Verif.Aucpace.Tests.C93_aucpace",
    "Verif.Aucpace.Tests.C93_aucpace_strong",
    "Verif.Aucpace.Tests.C93_aucpace_hash",
    "Verif.Aucpace.Tests.C93_aucpace_ssid",
    "Verif.Aucpace.Tests.C93_aucpace_client",
    "Verif.Aucpace.Tests.C93_aucpace_server",
    "Verif.Aucpace.Tests.C93_aucpace_server_any",
    "Verif.Spake2.C93_spake2_basic",
    "Verif.Spake2.C93_spake2_mismatch",
    "Verif.Spake2.C93_spake2_refused"
   ],
   "note": ""
  },
  {
   "property": "C94",
   "status": "proved",
   "theorems": [
    "Verif.Aucpace.C94_aucpace",
    "Verif.Aucpace.C94_aucpace_attained",
    "Verif.Aucpace.C94_aucpace_elements",
    "Verif.Spake2.C94_spake2",
    "Verif.Spake2.C94_spake2_attained",
    "Verif.Spake2.C94_spake2_crate"
   ],
   "note": ""
  },
  {
   "property": "C95",
   "status": "proved",
   "theorems": [
    "Verif.Aucpace.C95_aucpace",
    "Verif.Aucpace.C95_aucpace_told",
    "Verif.Spake2.C95_spake2",
    "Verif.Spake2.C95_spake2_told"
   ],
   "note": ""
  },
  {
   "property": "C96",
   "status": "proved",
   "theorems": [
    "Verif.Aucpace.C96_factor",
    "Verif.Aucpace.C96_factor_differs",
    "Verif.Aucpace.C96_only_factor",
    "Verif.Aucpace.C96_blinding",
    "Verif.Aucpace.C96_blinding_partial_aug",
    "Verif.Aucpace.C96_x",
    "Verif.Aucpace.C96_x_alloc",
    "Verif.Aucpace.C96_x_strong",
    "Verif.Aucpace.C96_x_strong_alloc"
   ],
   "note": ""
  },
  {
   "property": "C97",
   "status": "proved",
   "theorems": [
    "Verif.Aucpace.Keys.C97_aucpace",
    "Verif.Aucpace.Keys.C97_aucpace_passive",
    "Verif.Aucpace.Keys.C97_aucpace_made",
    "Verif.Aucpace.Keys.C97_aucpace_elements",
    "Verif.Spake2.Keys.C97_spake2",
    "Verif.Spake2.Keys.C97_spake2_passive",
    "Verif.Spake2.Keys.C97_spake2_made"
   ],
   "note": ""
  },
  {
   "property": "C98",
   "status": "proved",
   "theorems": [
    "Verif.Aucpace.Impostor.C98_aucpace",
    "Verif.Aucpace.Impostor.C98_aucpace_guess",
    "Verif.Aucpace.Impostor.C98_aucpace_elements"
   ],
   "note": ""
  },
  {
   "property": "C99",
   "status": "proved",
   "theorems": [
    "Verif.Srp.Guessing.C99_srp_server",
    "Verif.Srp.Guessing.C99_srp_builtin",
    "Verif.Srp.Guessing.C99_srp_attained"
   ],
   "note": "Private values must be spread over all exponents: with short ones the public value already tells candidates apart (C82). A = 1 and A = -1 are left out because the server accepts them and the secrets of several candidates may then coincide for every u. The SRP client sends its proof first, from which an unbounded attacker finds the password."
  },
  {
   "property": "C100",
   "status": "proved",
   "theorems": [
    "Verif.Aucpace.Unbounded.C100_aucpace_server",
    "Verif.Aucpace.Unbounded.C100_aucpace_server_strong",
    "Verif.Aucpace.Unbounded.C100_aucpace_attained",
    "Verif.Spake2.Unbounded.C100_spake2",
    "Verif.Spake2.Unbounded.C100_spake2_attained"
   ],
   "note": "C84 holds for every hash function but excepts cases that name a collision; here the hash function is drawn and nothing is excepted. The AuCPace client is left out for the reason in C84."
  },
  {
   "property": "C101",
   "status": "proved",
   "theorems": [
    "Verif.Failure.C101_aucpace",
    "Verif.Failure.C101_aucpace_stored",
    "Verif.Failure.C101_aucpace_strong",
    "Verif.Failure.C101_aucpace_strong_stored",
    "Verif.Failure.C101_unusable",
    "Verif.Failure.C101_unusable_keypair",
    "Verif.Failure.C101_srp"
   ],
   "note": "SPAKE2 logins of peers with the same password never fail (C16, C17)."
  },
  {
   "property": "C102",
   "status": "proved",
   "theorems": [
    "Verif.Aucpace.Nobody.C102_generators",
    "Verif.Aucpace.Nobody.C102_server",
    "Verif.Aucpace.Nobody.C102_server_strong",
    "Verif.Aucpace.Nobody.C102_attained",
    "Verif.Aucpace.Nobody.C102_ristretto",
    "Verif.Aucpace.Nobody.C102_ristretto_strong"
   ],
   "note": "Complements C44 (a client is accepted only with the random string of the session or a named collision)."
  },
  {
   "property": "C103",
   "status": "proved",
   "theorems": [
    "Verif.Aucpace.Work.C103_plain",
    "Verif.Aucpace.Work.C103_partial_aug",
    "Verif.Aucpace.Work.C103_strong",
    "Verif.Aucpace.Work.C103_partial_strong",
    "Verif.Aucpace.Work.C103_rest",
    "Verif.Aucpace.Work.C103_plain_difference",
    "Verif.Aucpace.Work.C103_partial_aug_difference",
    "Verif.Aucpace.Work.C103_strong_difference"
   ],
   "note": "Complements C45 (the contents of the answers) and C81 (the comparisons)."
  },
  {
   "property": "C104",
   "status": "proved",
   "theorems": [
    "Verif.First.Srp.C104_srp",
    "Verif.First.Srp.C104_srp_builtin",
    "Verif.First.Aucpace.C104_aucpace",
    "Verif.First.Aucpace.C104_strong",
    "Verif.First.Aucpace.C104_strong_recorded"
   ],
   "note": "Why C99 and C100 are about servers: for clients no such bound can hold."
  }
 ]
}