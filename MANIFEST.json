{
 "claims": [
  {
   "property": "C01",
   "status": "proved",
   "theorems": [
    "Verif.Props.C01_chunking_independent",
    "Verif.Props.C01_two_chunkings"
   ],
   "note": "All eleven classes; SHA-3 for fewer than 2^64 bytes, no bound for the others."
  },
  {
   "property": "C02",
   "status": "proved",
   "theorems": [
    "Verif.Props.C02_reads_do_not_disturb",
    "Verif.Props.C02_read_then_continue"
   ],
   "note": "Histories adding fewer than 2^61 bytes in total."
  },
  {
   "property": "C03",
   "status": "proved",
   "theorems": [
    "Verif.Props.C03_uninitialised_buffer_irrelevant"
   ],
   "note": ""
  },
  {
   "property": "C04",
   "status": "proved",
   "theorems": [
    "Verif.Props.C04_md5_rfc1321"
   ],
   "note": "No length bound needed; T[i] specified as floor(2^32 |sin i|) over the reals."
  },
  {
   "property": "C05",
   "status": "proved",
   "theorems": [
    "Verif.Props.C05_sha1_fips180"
   ],
   "note": "No length bound needed."
  },
  {
   "property": "C06",
   "status": "proved",
   "theorems": [
    "Verif.Props.C06_sha256_fips180",
    "Verif.Props.C06_sha224_fips180"
   ],
   "note": "Constants specified as fractional parts of roots of primes."
  },
  {
   "property": "C07",
   "status": "proved",
   "theorems": [
    "Verif.Props.C07_sha512_fips180",
    "Verif.Props.C07_sha384_fips180"
   ],
   "note": ""
  },
  {
   "property": "C08",
   "status": "proved",
   "theorems": [
    "Verif.Props.C08_sha3_fips202"
   ],
   "note": "Against the bit-level FIPS 202 sponge."
  },
  {
   "property": "C09",
   "status": "partial",
   "theorems": [
    "Verif.Props.C09_false",
    "Verif.Props.C09_violations",
    "Verif.Props.C09_partial",
    "Verif.Props.C09_digest_partial"
   ],
   "note": "The code violates the claim: sha3-256 and unknown names select SHA3-512. Negation proved, exact dispatch proved."
  },
  {
   "property": "C10",
   "status": "partial",
   "theorems": [
    "Verif.Props.C10_false",
    "Verif.Props.C10_partial"
   ],
   "note": "The code violates the claim for SHA2<224>/SHA2<384> (untruncated hex); proved for the other nine classes and as a prefix for these two."
  },
  {
   "property": "C100",
   "status": "partial",
   "theorems": [
    "Verif.Props.C100_partial",
    "Verif.Props.C100_empty_partial",
    "Verif.Props.C100_false"
   ],
   "note": "False: extensions are not read; exactly the common name is accepted, the empty name if there is none."
  },
  {
   "property": "C101",
   "status": "proved",
   "theorems": [
    "Verif.Props.C101_print",
    "Verif.Props.C101_injective"
   ],
   "note": ""
  },
  {
   "property": "C102",
   "status": "proved",
   "theorems": [
    "Verif.Props.C102_hashsize",
    "Verif.Props.C102_maxLength"
   ],
   "note": ""
  },
  {
   "property": "C103",
   "status": "partial",
   "theorems": [
    "Verif.Props.C103_false",
    "Verif.Props.C103_partial"
   ],
   "note": "False for the code: the salt in the signature determines the state of the generator. Exact computation of the next key proved for moduli of whole bytes."
  },
  {
   "property": "C104",
   "status": "partial",
   "theorems": [
    "Verif.Props.C104_false",
    "Verif.Props.C104_early_partial",
    "Verif.Props.C104_partial"
   ],
   "note": "False for dates before 1970, where the order is reversed; proved for all dates from 1970 on."
  },
  {
   "property": "C105",
   "status": "partial",
   "theorems": [
    "Verif.Props.C105_partial",
    "Verif.Props.C105_key_partial",
    "Verif.Props.C105_trust_partial",
    "Verif.Props.C105_attack",
    "Verif.Props.C105_false"
   ],
   "note": "The claim is false: the null key pointer is dereferenced. Proved: exactly when verify refuses and when it faults, that every certificate with a key of another kind is read to an object without key, and that trust faults on any certificate naming such an issuer."
  },
  {
   "property": "C106",
   "status": "partial",
   "theorems": [
    "Verif.Props.C106_partial",
    "Verif.Props.C106_fields_partial",
    "Verif.Props.C106_mixed",
    "Verif.Props.C106_false"
   ],
   "note": "The claim is false: the inner algorithm field is read and ignored. Proved: its content influences no field, and acceptance depends on the outer algorithm only."
  },
  {
   "property": "C107",
   "status": "partial",
   "theorems": [
    "Verif.Props.C107_partial",
    "Verif.Props.C107_states_partial",
    "Verif.Props.C107_primes_partial",
    "Verif.Props.C107_false"
   ],
   "note": "The claim is false: exactly 2^63 X25519 private keys can come out in any process, and at most 2^63 primes for every size."
  },
  {
   "property": "C108",
   "status": "proved",
   "theorems": [
    "Verif.Props.C108_sound",
    "Verif.Props.C108_complete",
    "Verif.Props.C108_demo",
    "Verif.Props.C108_demo_complete"
   ],
   "note": "End-to-end soundness and completeness of trust on certificate bytes, for well-formed certificates with RSA keys and plain names."
  },
  {
   "property": "C109",
   "status": "proved",
   "theorems": [
    "Verif.Props.C109",
    "Verif.Props.C109_blanked"
   ],
   "note": ""
  },
  {
   "property": "C11",
   "status": "partial",
   "theorems": [
    "Verif.Props.C11_false",
    "Verif.Props.C11_violations",
    "Verif.Props.C11_partial"
   ],
   "note": "The code violates the claim for SHA3-224/384/512; proved for the other classes."
  },
  {
   "property": "C110",
   "status": "proved",
   "theorems": [
    "Verif.Props.C110",
    "Verif.Props.C110_second"
   ],
   "note": ""
  },
  {
   "property": "C111",
   "status": "proved",
   "theorems": [
    "Verif.Props.C111_digest",
    "Verif.Props.C111_string"
   ],
   "note": ""
  },
  {
   "property": "C112",
   "status": "proved",
   "theorems": [
    "Verif.Props.C112_permutation",
    "Verif.Props.C112_add",
    "Verif.Props.C112_block"
   ],
   "note": "processChunk is a bijection on 25-lane states; add is injective in the object and, within a block, in the data."
  },
  {
   "property": "C113",
   "status": "partial",
   "theorems": [
    "Verif.Props.C113_partial",
    "Verif.Props.C113_forge_partial",
    "Verif.Props.C113_false_truncated",
    "Verif.Props.C113_false_zero"
   ],
   "note": "False: moduli and exponents are truncated to 4096 bits and a modulus that is a multiple of 2^4096 makes parsing run for ever. The partial theorem gives the exact outcome for every key; the forgery theorem shows the consequence of truncation."
  },
  {
   "property": "C114",
   "status": "partial",
   "theorems": [
    "Verif.Props.C114_partial",
    "Verif.Props.C114_der_partial",
    "Verif.Props.C114_forge_partial",
    "Verif.Props.C114_false"
   ],
   "note": "The claim is false; the theorems give the exact truth for certificates that parse on their own and the attack on the others."
  },
  {
   "property": "C115",
   "status": "partial",
   "theorems": [
    "Verif.Props.C115_partial",
    "Verif.Props.C115_false"
   ],
   "note": "Refuted for AES-128; the exact statement for two sessions with different hash subkeys is proved."
  },
  {
   "property": "C116",
   "status": "proved",
   "theorems": [
    "Verif.Props.C116_plaintexts",
    "Verif.Props.C116_subkey",
    "Verif.Props.C116_forge"
   ],
   "note": ""
  },
  {
   "property": "C117",
   "status": "proved",
   "theorems": [
    "Verif.Props.C117_fixed",
    "Verif.Props.C117_repeat"
   ],
   "note": ""
  },
  {
   "property": "C118",
   "status": "proved",
   "theorems": [
    "Verif.Props.C118_hmac",
    "Verif.Props.C118_pkcs1",
    "Verif.Props.C118_one_hash",
    "Verif.Props.C118_pss",
    "Verif.Props.C118_certificates"
   ],
   "note": "Reductions to explicit collisions; examples give two certificates accepted with one signature, and a CRC-32 PSS signature accepted for two messages."
  },
  {
   "property": "C119",
   "status": "proved",
   "theorems": [
    "Verif.Props.C119",
    "Verif.Props.C119_hard"
   ],
   "note": "Events at the level of the source text; the time of single instructions is assumed not to depend on operands."
  },
  {
   "property": "C12",
   "status": "proved",
   "theorems": [
    "Verif.Props.C12_crc32_bitwise"
   ],
   "note": ""
  },
  {
   "property": "C120",
   "status": "proved",
   "theorems": [
    "Verif.Props.C120"
   ],
   "note": "Events at the level of the source text; the conversions from and to octets around rsadp are not included."
  },
  {
   "property": "C121",
   "status": "partial",
   "theorems": [
    "Verif.Props.C121_false",
    "Verif.Props.C121_partial"
   ],
   "note": "The claim is false; the events with the choices determine the private exponent."
  },
  {
   "property": "C122",
   "status": "partial",
   "theorems": [
    "Verif.Props.C122_false",
    "Verif.Props.C119"
   ],
   "note": "The claim is false by two concrete keys; C119 is what holds without the choices. Not shown: how much of the key the choices reveal."
  },
  {
   "property": "C123",
   "status": "proved",
   "theorems": [
    "Verif.Props.C123",
    "Verif.Props.C123_result"
   ],
   "note": "Events at the level of the source text, including conditional choices."
  },
  {
   "property": "C124",
   "status": "partial",
   "theorems": [
    "Verif.Props.C124_false",
    "Verif.Props.C124_partial",
    "Verif.Props.C124_forge_partial",
    "Verif.Props.C124_aes_partial"
   ],
   "note": "The claim is false; the theorems give exactly what is revealed and the forgery that follows. The comparison is modelled element by element; memcmp may compare in larger units."
  },
  {
   "property": "C125",
   "status": "partial",
   "theorems": [
    "Verif.Props.C125_false",
    "Verif.Props.C125_partial"
   ],
   "note": "The claim is false. C123 is the case of 12-byte IVs. Shown here: from 255 blocks on the last byte of the first counter is revealed."
  },
  {
   "property": "C126",
   "status": "proved",
   "theorems": [
    "Verif.Props.C126_memory",
    "Verif.Props.C126",
    "Verif.Props.C126_hmac",
    "Verif.Props.C126_hkdf"
   ],
   "note": "Events are branch outcomes, array indices and conditional choices at the level of the source."
  },
  {
   "property": "C127",
   "status": "proved",
   "theorems": [
    "Verif.Props.C127",
    "Verif.Props.C127_memory"
   ],
   "note": "Events as in C126; any sequence of pieces."
  },
  {
   "property": "C128",
   "status": "partial",
   "theorems": [
    "Verif.Props.C128_partial",
    "Verif.Props.C128_false",
    "Verif.Props.C128_hmac"
   ],
   "note": "The claim is false; the events of CRC32 determine the data (C128_partial), with HMAC<CRC32> also short keys (C128_hmac)."
  },
  {
   "property": "C129",
   "status": "partial",
   "theorems": [
    "Verif.Props.C129_encode_partial",
    "Verif.Props.C129_decode_partial",
    "Verif.Props.C129_false"
   ],
   "note": "The claim is false; the events determine the data resp. the text."
  },
  {
   "property": "C13",
   "status": "proved",
   "theorems": [
    "Verif.Props.C13_crc32_detects_bursts",
    "Verif.Props.C13_four_bytes"
   ],
   "note": ""
  },
  {
   "property": "C130",
   "status": "partial",
   "theorems": [
    "Verif.Props.C130_test_partial",
    "Verif.Props.C130_partial",
    "Verif.Props.C130_false"
   ],
   "note": "claim is false; equal events force equal primes"
  },
  {
   "property": "C131",
   "status": "partial",
   "theorems": [
    "Verif.Props.C131_partial",
    "Verif.Props.C131_exact_partial",
    "Verif.Props.C131_false"
   ],
   "note": "claim is false; the branches are equivalent to quadratic characters of the 1000 smallest primes"
  },
  {
   "property": "C132",
   "status": "partial",
   "theorems": [
    "Verif.Props.C132_atomic_partial",
    "Verif.Props.C132_same_partial",
    "Verif.Props.C132_false",
    "Verif.Props.C132_repeat_partial",
    "Verif.Props.C132_any_partial",
    "Verif.Props.C132_keys_partial"
   ],
   "note": "The claim as stated is refuted by C132_false: two threads in step receive the same value. The partial theorems give the calls that do not overlap, the behaviour of threads in step, the effect of a late store and a bound for every schedule."
  },
  {
   "property": "C133",
   "status": "proved",
   "theorems": [
    "Verif.Props.C133_md5",
    "Verif.Props.C133_sha1",
    "Verif.Props.C133_pss",
    "Verif.Props.C133_spec"
   ],
   "note": ""
  },
  {
   "property": "C134",
   "status": "partial",
   "theorems": [
    "Verif.Props.C134_value_partial",
    "Verif.Props.C134_sequence_partial",
    "Verif.Props.C134_false",
    "Verif.Props.C134_unavailable_partial"
   ],
   "note": "The claim as stated is refuted by C134_false: one value comes from four hardware values. The partial theorems give the bound 4 per call in every state and 4^n for n calls, and the behaviour when the instruction delivers nothing."
  },
  {
   "property": "C135",
   "status": "partial",
   "theorems": [
    "Verif.Props.C135_certificate_partial",
    "Verif.Props.C135_oid_partial",
    "Verif.Props.C135_bundle_partial",
    "Verif.Props.C135_private_partial",
    "Verif.Props.C135_false",
    "Verif.Props.C135_false_private"
   ],
   "note": "The claim fails for a modulus of 0; proved: that is the only cause."
  },
  {
   "property": "C136",
   "status": "partial",
   "theorems": [
    "Verif.Props.C136_append_partial",
    "Verif.Props.C136_unsigned_partial",
    "Verif.Props.C136_false"
   ],
   "note": "False in full: bytes behind the certificate are ignored. Proved: appending never changes fields or verdict; tag and parameters of the algorithm identifier and the number of unused bits never change the verdict."
  },
  {
   "property": "C137",
   "status": "partial",
   "theorems": [
    "Verif.Props.C137_iff",
    "Verif.Props.C137_small_partial"
   ],
   "note": "Full for N up to 256 bits; for larger N the exact condition on the generator's states, not that it holds."
  },
  {
   "property": "C138",
   "status": "proved",
   "theorems": [
    "Verif.Props.C138_collision",
    "Verif.Props.C138_truncated"
   ],
   "note": "For message lengths below 2^61 bytes, where the bit length fits the length field."
  },
  {
   "property": "C139",
   "status": "proved",
   "theorems": [
    "Verif.Props.C139_product",
    "Verif.Props.C139_blind",
    "Verif.Props.C139_small",
    "Verif.Props.C139_common",
    "Verif.Props.C139_fixed"
   ],
   "note": "About rsaep and rsadp; the padded operations do not have these properties."
  },
  {
   "property": "C14",
   "status": "proved",
   "theorems": [
    "Verif.Props.C14_round_trip",
    "Verif.Props.C14_encoding_injective"
   ],
   "note": ""
  },
  {
   "property": "C140",
   "status": "proved",
   "theorems": [
    "Verif.Props.C140_chacha",
    "Verif.Props.C140_ecb",
    "Verif.Props.C140_cbc"
   ],
   "note": "ECB and CBC for an abstract invertible cipher, as the library has none that fits the templates."
  },
  {
   "property": "C141",
   "status": "partial",
   "theorems": [
    "Verif.Props.C141_partial",
    "Verif.Props.C141_key_independent",
    "Verif.Props.C141_inverse",
    "Verif.Props.C141_false"
   ],
   "note": "The full claim (different residues of large order never give the same secret) is false; C141_false refutes it with nine and its inverse. C141_partial states exactly which received values coincide."
  },
  {
   "property": "C142",
   "status": "proved",
   "theorems": [
    "Verif.Props.C142_aes128",
    "Verif.Props.C142_aes256",
    "Verif.Props.C142_any128",
    "Verif.Props.C142_any256"
   ],
   "note": ""
  },
  {
   "property": "C143",
   "status": "proved",
   "theorems": [
    "Verif.Props.C143_traffic",
    "Verif.Props.C143_finished",
    "Verif.Props.C143_handshake",
    "Verif.Props.C143_master",
    "Verif.Props.C143_session"
   ],
   "note": ""
  },
  {
   "property": "C144",
   "status": "proved",
   "theorems": [
    "Verif.Props.C144_count",
    "Verif.Props.C144_same_set"
   ],
   "note": ""
  },
  {
   "property": "C145",
   "status": "proved",
   "theorems": [
    "Verif.Props.C145_pss",
    "Verif.Props.C145_pkcs1",
    "Verif.Props.C145_sign"
   ],
   "note": "Conditions that only choose a value are not seen (C121 says what they reveal). Drawing the salt is not part of the run."
  },
  {
   "property": "C146",
   "status": "partial",
   "theorems": [
    "Verif.Props.C146_partial",
    "Verif.Props.C146_bytes_partial",
    "Verif.Props.C146_false"
   ],
   "note": "The claim is refuted: the step of the generator is a bijection that can be run backwards, so sixteen bytes give every byte drawn earlier."
  },
  {
   "property": "C147",
   "status": "partial",
   "theorems": [
    "Verif.Props.C147_partial",
    "Verif.Props.C147_secret_partial",
    "Verif.Props.C147_false"
   ],
   "note": "The claim is refuted: the salt in a PSS signature gives the X25519 private key drawn before it."
  },
  {
   "property": "C148",
   "status": "proved",
   "theorems": [
    "Verif.Props.C148",
    "Verif.Props.C148_cascade",
    "Verif.Props.C148_exists"
   ],
   "note": ""
  },
  {
   "property": "C149",
   "status": "proved",
   "theorems": [
    "Verif.Props.C149_two",
    "Verif.Props.C149_four",
    "Verif.Props.C149_sbox",
    "Verif.Props.C149_aes128",
    "Verif.Props.C149_aes256"
   ],
   "note": ""
  },
  {
   "property": "C15",
   "status": "proved",
   "theorems": [
    "Verif.Props.C15_alphabets",
    "Verif.Props.C15_encoding",
    "Verif.Props.C15_line_length"
   ],
   "note": ""
  },
  {
   "property": "C150",
   "status": "proved",
   "theorems": [
    "Verif.Props.C150_states",
    "Verif.Props.C150_collision",
    "Verif.Props.C150_build",
    "Verif.Props.C150_exists"
   ],
   "note": "the theorem about the final state assumes messages below 2^63 bytes; sha3Process is the model of the permutation"
  },
  {
   "property": "C151",
   "status": "proved",
   "theorems": [
    "Verif.Props.C151"
   ],
   "note": "counts passes and calls of verify; the time inside verify is not counted"
  },
  {
   "property": "C152",
   "status": "proved",
   "theorems": [
    "Verif.Props.C152_rounds",
    "Verif.Props.C152_distinct",
    "Verif.Props.C152_block",
    "Verif.Props.C152_columns",
    "Verif.Props.C152_constants"
   ],
   "note": ""
  },
  {
   "property": "C153",
   "status": "proved",
   "theorems": [
    "Verif.Props.C153_detected",
    "Verif.Props.C153_undetected"
   ],
   "note": "exact bound: 11454 bytes; order of bits as in the CRC, least significant bit of each byte first"
  },
  {
   "property": "C154",
   "status": "partial",
   "theorems": [
    "Verif.Props.C154_same_partial",
    "Verif.Props.C154_partial",
    "Verif.Props.C154_false"
   ],
   "note": "false: keys that agree in their first 2*hashsize bytes up to trailing zeros are equivalent; other pairs are separated up to an explicit hash collision"
  },
  {
   "property": "C155",
   "status": "proved",
   "theorems": [
    "Verif.Props.C155_affine",
    "Verif.Props.C155_change",
    "Verif.Props.C155_parts",
    "Verif.Props.C155_combine",
    "Verif.Props.C155_residue"
   ],
   "note": "Full statement."
  },
  {
   "property": "C156",
   "status": "proved",
   "theorems": [
    "Verif.Props.C156_symmetric",
    "Verif.Props.C156_without",
    "Verif.Props.C156_broken"
   ],
   "note": "Full statement."
  },
  {
   "property": "C157",
   "status": "proved",
   "theorems": [
    "Verif.Props.C157_columns",
    "Verif.Props.C157_equal",
    "Verif.Props.C157_schedule128",
    "Verif.Props.C157_schedule256"
   ],
   "note": "The rotation is stated on 32-bit lanes; the round keys in C157_columns are any list, also a short one (then both sides are undefined)."
  },
  {
   "property": "C16",
   "status": "proved",
   "theorems": [
    "Verif.Props.C16_foreign_ignored",
    "Verif.Props.C16_insert_foreign",
    "Verif.Props.C16_length",
    "Verif.Props.C16_value"
   ],
   "note": ""
  },
  {
   "property": "C17",
   "status": "proved",
   "theorems": [
    "Verif.Props.C17_add",
    "Verif.Props.C17_sub"
   ],
   "note": "Every width; no hypothesis besides equal width."
  },
  {
   "property": "C18",
   "status": "proved",
   "theorems": [
    "Verif.Props.C18_mul",
    "Verif.Props.C18_square",
    "Verif.Props.C18_mulWord",
    "Verif.Props.C18_mul_width"
   ],
   "note": "C18_mul_width gives the exact set of widths where operator* stays inside its result array (bits mod 32 not in 1..16)."
  },
  {
   "property": "C19",
   "status": "proved",
   "theorems": [
    "Verif.Props.C19_compare"
   ],
   "note": ""
  },
  {
   "property": "C20",
   "status": "proved",
   "theorems": [
    "Verif.Props.C20_of_bytes",
    "Verif.Props.C20_as_bytes",
    "Verif.Props.C20_roundtrip",
    "Verif.Props.C20_bytes_roundtrip",
    "Verif.Props.C20_words"
   ],
   "note": ""
  },
  {
   "property": "C21",
   "status": "proved",
   "theorems": [
    "Verif.Props.C21_shr1",
    "Verif.Props.C21_shlWord",
    "Verif.Props.C21_slice",
    "Verif.Props.C21_bits",
    "Verif.Props.C21_neg",
    "Verif.Props.C21_bitwise",
    "Verif.Props.C21_ctimeSwap",
    "Verif.Props.C21_ofU32"
   ],
   "note": "slice for word-aligned start and whole-word width."
  },
  {
   "property": "C22",
   "status": "partial",
   "theorems": [
    "Verif.Props.C22_false",
    "Verif.Props.C22_partial",
    "Verif.Props.C22_exact"
   ],
   "note": "False as stated (C22_false): widths that are not multiples of 32 lose the top partial word. C22_exact is the exact condition."
  },
  {
   "property": "C23",
   "status": "partial",
   "theorems": [
    "Verif.Props.C23_false",
    "Verif.Props.C23_partial",
    "Verif.Props.C23_full_words_partial",
    "Verif.Props.C23_otherwise",
    "Verif.Props.C23_zero_diverges"
   ],
   "note": "False as stated: 100 mod 3 at 32 bits gives 97. C23_partial and C23_otherwise together cover every dividend; zero divisor diverges."
  },
  {
   "property": "C24",
   "status": "proved",
   "theorems": [
    "Verif.Props.C24_inverse"
   ],
   "note": ""
  },
  {
   "property": "C25",
   "status": "proved",
   "theorems": [
    "Verif.Props.C25_redc",
    "Verif.Props.C25_constants"
   ],
   "note": ""
  },
  {
   "property": "C26",
   "status": "partial",
   "theorems": [
    "Verif.Props.C26_false",
    "Verif.Props.C26_partial",
    "Verif.Props.C26_residue_partial"
   ],
   "note": "False for non-zero multiples of n (they convert back to n); exact behaviour proved, and full round trip for x < n."
  },
  {
   "property": "C27",
   "status": "proved",
   "theorems": [
    "Verif.Props.C27_arith"
   ],
   "note": ""
  },
  {
   "property": "C28",
   "status": "partial",
   "theorems": [
    "Verif.Props.C28_false",
    "Verif.Props.C28_partial"
   ],
   "note": "operator+ drops the carry: result proved one too small exactly when the representatives add past 2^K, right otherwise."
  },
  {
   "property": "C29",
   "status": "partial",
   "theorems": [
    "Verif.Props.C29_false",
    "Verif.Props.C29_partial"
   ],
   "note": "exp(uint32_t) ignores its argument; proved to be the 65537th power always."
  },
  {
   "property": "C30",
   "status": "proved",
   "theorems": [
    "Verif.Props.C30_rsaep",
    "Verif.Props.C30_multiple"
   ],
   "note": "canonical residue except that non-zero multiples of n give n"
  },
  {
   "property": "C31",
   "status": "proved",
   "theorems": [
    "Verif.Props.C31_inverse"
   ],
   "note": ""
  },
  {
   "property": "C32",
   "status": "proved",
   "theorems": [
    "Verif.Props.C32_mgf1",
    "Verif.Props.C32_long"
   ],
   "note": ""
  },
  {
   "property": "C33",
   "status": "partial",
   "theorems": [
    "Verif.Props.C33_partial",
    "Verif.Props.C33_false"
   ],
   "note": "false: too short requests never return or get short padding; DigestInfo of SHA3-224/384/512 is wrong"
  },
  {
   "property": "C34",
   "status": "partial",
   "theorems": [
    "Verif.Props.C34_partial",
    "Verif.Props.C34_unique",
    "Verif.Props.C34_false"
   ],
   "note": "false: signatures not below n are accepted"
  },
  {
   "property": "C35",
   "status": "partial",
   "theorems": [
    "Verif.Props.C35_partial",
    "Verif.Props.C35_accept_false",
    "Verif.Props.C35_false"
   ],
   "note": "false: output has the wrong byte order and may be shorter than the modulus"
  },
  {
   "property": "C36",
   "status": "proved",
   "theorems": [
    "Verif.Props.C36_sign_verify"
   ],
   "note": ""
  },
  {
   "property": "C37",
   "status": "proved",
   "theorems": [
    "Verif.Props.C37_verify"
   ],
   "note": ""
  },
  {
   "property": "C38",
   "status": "partial",
   "theorems": [
    "Verif.Props.C38_partial",
    "Verif.Props.C38_sha256",
    "Verif.Props.C38_false"
   ],
   "note": "false: SHA-384/512 schemes sign a SHA-256 hash"
  },
  {
   "property": "C39",
   "status": "proved",
   "theorems": [
    "Verif.Props.C39_small"
   ],
   "note": ""
  },
  {
   "property": "C40",
   "status": "proved",
   "theorems": [
    "Verif.Props.C40_primes_pass"
   ],
   "note": ""
  },
  {
   "property": "C41",
   "status": "proved",
   "theorems": [
    "Verif.Props.C41_accepted",
    "Verif.Props.C41_bases"
   ],
   "note": ""
  },
  {
   "property": "C42",
   "status": "proved",
   "theorems": [
    "Verif.Props.C42_random_prime",
    "Verif.Props.C42_product"
   ],
   "note": "partial correctness: termination depends on the random stream"
  },
  {
   "property": "C43",
   "status": "proved",
   "theorems": [
    "Verif.Props.C43_stream"
   ],
   "note": ""
  },
  {
   "property": "C44",
   "status": "proved",
   "theorems": [
    "Verif.Props.C44_period",
    "Verif.Props.C44_distinct"
   ],
   "note": ""
  },
  {
   "property": "C45",
   "status": "partial",
   "theorems": [
    "Verif.Props.C45_partial",
    "Verif.Props.C45_false"
   ],
   "note": "false: fixed seed"
  },
  {
   "property": "C46",
   "status": "proved",
   "theorems": [
    "Verif.Props.C46_add",
    "Verif.Props.C46_sub",
    "Verif.Props.C46_mul",
    "Verif.Props.C46_mulWord",
    "Verif.Props.C46_square"
   ],
   "note": ""
  },
  {
   "property": "C47",
   "status": "partial",
   "theorems": [
    "Verif.Props.C47_applyModulus",
    "Verif.Props.C47_false",
    "Verif.Props.C47_partial"
   ],
   "note": "Refuted: != compares representations, so it holds of congruent values (2^255-19 and 0). ==, < and applyModulus are exact; != is exact on canonical values."
  },
  {
   "property": "C48",
   "status": "proved",
   "theorems": [
    "Verif.Props.C48_inverse"
   ],
   "note": ""
  },
  {
   "property": "C49",
   "status": "partial",
   "theorems": [
    "Verif.Props.C49_false",
    "Verif.Props.C49_exact",
    "Verif.Props.C49_partial"
   ],
   "note": "Refuted: bit 255 of u is not masked. Equal to RFC 7748 for every u below 2^255; C49_exact gives the value for every u."
  },
  {
   "property": "C50",
   "status": "proved",
   "theorems": [
    "Verif.Props.C50_key_agreement",
    "Verif.Props.C50_base_point"
   ],
   "note": ""
  },
  {
   "property": "C51",
   "status": "proved",
   "theorems": [
    "Verif.Props.C51_canonical",
    "Verif.Props.C51_insensitive"
   ],
   "note": ""
  },
  {
   "property": "C52",
   "status": "proved",
   "theorems": [
    "Verif.Props.C52_aes128",
    "Verif.Props.C52_aes256",
    "Verif.Props.C52_inverse"
   ],
   "note": "intrinsics modelled from the Intel manual"
  },
  {
   "property": "C53",
   "status": "proved",
   "theorems": [
    "Verif.Props.C53_aes128",
    "Verif.Props.C53_aes256"
   ],
   "note": ""
  },
  {
   "property": "C54",
   "status": "proved",
   "theorems": [
    "Verif.Props.C54_multiplication",
    "Verif.Props.C54_register",
    "Verif.Props.C54_step",
    "Verif.Props.C54_commutative"
   ],
   "note": ""
  },
  {
   "property": "C55",
   "status": "partial",
   "theorems": [
    "Verif.Props.C55_false",
    "Verif.Props.C55_partial",
    "Verif.Props.C55_aes256_partial",
    "Verif.Props.C55_records",
    "Verif.Props.C55_first",
    "Verif.Props.C55_unsupported"
   ],
   "note": "false for IVs of 1-7 and 9-11 bytes; everything else proved"
  },
  {
   "property": "C56",
   "status": "proved",
   "theorems": [
    "Verif.Props.C56_session",
    "Verif.Props.C56_aes128"
   ],
   "note": ""
  },
  {
   "property": "C57",
   "status": "proved",
   "theorems": [
    "Verif.Props.C57_exact",
    "Verif.Props.C57_standard",
    "Verif.Props.C57_tag",
    "Verif.Props.C57_unsupported"
   ],
   "note": ""
  },
  {
   "property": "C58",
   "status": "proved",
   "theorems": [
    "Verif.Props.C58_distinct"
   ],
   "note": ""
  },
  {
   "property": "C59",
   "status": "partial",
   "theorems": [
    "Verif.Props.C59_false",
    "Verif.Props.C59_counterexample",
    "Verif.Props.C59_partial"
   ],
   "note": "both halves of the claim are false for the code; exact behaviour proved"
  },
  {
   "property": "C60",
   "status": "partial",
   "theorems": [
    "Verif.Props.C60_false",
    "Verif.Props.C60_partial",
    "Verif.Props.C60_constructor",
    "Verif.Props.C60_restores"
   ],
   "note": "the claim is false for the code: the keystream is overwritten with zeros; identity proved"
  },
  {
   "property": "C61",
   "status": "partial",
   "theorems": [
    "Verif.Props.C61_false",
    "Verif.Props.C61_partial",
    "Verif.Props.C61_ecb"
   ],
   "note": "ECB proved, CBC false; exact result of CBC decryption proved"
  },
  {
   "property": "C62",
   "status": "proved",
   "theorems": [
    "Verif.Props.C62_conforms"
   ],
   "note": ""
  },
  {
   "property": "C63",
   "status": "proved",
   "theorems": [
    "Verif.Props.C63_roundtrip",
    "Verif.Props.C63_constructor"
   ],
   "note": ""
  },
  {
   "property": "C64",
   "status": "partial",
   "theorems": [
    "Verif.Props.C64_partial",
    "Verif.Props.C64_counter",
    "Verif.Props.C64_repeats",
    "Verif.Props.C64_false"
   ],
   "note": "proved below 2^38 bytes; beyond that the 32-bit block counter wraps and the key stream repeats (C64_false, C64_repeats)"
  },
  {
   "property": "C65",
   "status": "partial",
   "theorems": [
    "Verif.Props.C65_partial",
    "Verif.Props.C65_exact",
    "Verif.Props.C65_long_keys_truncated",
    "Verif.Props.C65_false_sha384",
    "Verif.Props.C65_false_sha1",
    "Verif.Props.C65_false_sha256_long",
    "Verif.Props.C65_false"
   ],
   "note": "only SHA-256/SHA-512 with keys of at most one block conform; exact behaviour for all classes in C65_exact"
  },
  {
   "property": "C66",
   "status": "partial",
   "theorems": [
    "Verif.Props.C66_partial",
    "Verif.Props.C66_extract",
    "Verif.Props.C66_standard",
    "Verif.Props.C66_prefix",
    "Verif.Props.C66_false"
   ],
   "note": "everything except the rejection of requests longer than 255 blocks, which the code answers"
  },
  {
   "property": "C67",
   "status": "proved",
   "theorems": [
    "Verif.Props.C67_encoding",
    "Verif.Props.C67_expand_label",
    "Verif.Props.C67_injective",
    "Verif.Props.C67_limits_needed"
   ],
   "note": ""
  },
  {
   "property": "C68",
   "status": "proved",
   "theorems": [
    "Verif.Props.C68_traffic_secret",
    "Verif.Props.C68_key_iv",
    "Verif.Props.C68_finished",
    "Verif.Props.C68_handshake_secret",
    "Verif.Props.C68_master_secret",
    "Verif.Props.C68_separation"
   ],
   "note": ""
  },
  {
   "property": "C69",
   "status": "proved",
   "theorems": [
    "Verif.Props.C69_read_inverts",
    "Verif.Props.C69_injective"
   ],
   "note": ""
  },
  {
   "property": "C70",
   "status": "partial",
   "theorems": [
    "Verif.Props.C70_partial",
    "Verif.Props.C70_whole_partial",
    "Verif.Props.C70_false_truncated",
    "Verif.Props.C70_false_nested",
    "Verif.Props.C70_false_modulus",
    "Verif.Props.C70_false"
   ],
   "note": "the claim is false: no length is checked against the size of the span; proved exactly when a read stays inside"
  },
  {
   "property": "C71",
   "status": "partial",
   "theorems": [
    "Verif.Props.C71_partial",
    "Verif.Props.C71_late_partial",
    "Verif.Props.C71_early_partial",
    "Verif.Props.C71_exact",
    "Verif.Props.C71_false_2100",
    "Verif.Props.C71_false_1969"
   ],
   "note": "false from 2100-03-01 on and before 1970; exact in between"
  },
  {
   "property": "C72",
   "status": "partial",
   "theorems": [
    "Verif.Props.C72_partial",
    "Verif.Props.C72_single_partial",
    "Verif.Props.C72_store",
    "Verif.Props.C72_false"
   ],
   "note": "false for two or more certificates: the last one is missing and the first one is returned twice; exact result proved"
  },
  {
   "property": "C73",
   "status": "partial",
   "theorems": [
    "Verif.Props.C73_defined",
    "Verif.Props.C73_partial",
    "Verif.Props.C73_unknown_partial",
    "Verif.Props.C73_false_separator",
    "Verif.Props.C73_false_unknown",
    "Verif.Props.C73_false_repeated",
    "Verif.Props.C73_false_set",
    "Verif.Props.C73_false_string_type"
   ],
   "note": "false for separators inside values, unknown types, repeated types, sets and other string types; proved for plain names"
  },
  {
   "property": "C74",
   "status": "partial",
   "theorems": [
    "Verif.Props.C74_partial",
    "Verif.Props.C74_any_partial",
    "Verif.Props.C74_false_header",
    "Verif.Props.C74_false_length",
    "Verif.Props.C74_false_range"
   ],
   "note": "exact for DER certificates with a signature of the length of the modulus and below it; for arbitrary bytes the signature equation; false in general because of the header of the TBSCertificate, the length of the signature and its range"
  },
  {
   "property": "C75",
   "status": "proved",
   "theorems": [
    "Verif.Props.C75"
   ],
   "note": ""
  },
  {
   "property": "C76",
   "status": "partial",
   "theorems": [
    "Verif.Props.C76_partial",
    "Verif.Props.C76_terminates_partial",
    "Verif.Props.C76_passes",
    "Verif.Props.C76_false"
   ],
   "note": "the loop terminates if verify does; false because verify does not terminate for short signatures"
  },
  {
   "property": "C77",
   "status": "partial",
   "theorems": [
    "Verif.Props.C77_partial",
    "Verif.Props.C77_order_partial",
    "Verif.Props.C77_false"
   ],
   "note": "needs that no name of the chain is in the store and that no verification faults; false for a self-signed certificate in the store"
  },
  {
   "property": "C78",
   "status": "proved",
   "theorems": [
    "Verif.Props.C78_get",
    "Verif.Props.C78_add",
    "Verif.Props.C78_list"
   ],
   "note": ""
  },
  {
   "property": "C79",
   "status": "partial",
   "theorems": [
    "Verif.Props.C79_issuer_fields",
    "Verif.Props.C79_extensions_ignored",
    "Verif.Props.C79_false"
   ],
   "note": "false: extensions are not evaluated; a chain through a certificate that is not an authority is accepted"
  },
  {
   "property": "C80",
   "status": "partial",
   "theorems": [
    "Verif.Props.C80_partial",
    "Verif.Props.C80_serial_partial",
    "Verif.Props.C80_exponent_partial",
    "Verif.Props.C80_uniqueID_partial",
    "Verif.Props.C80_false_serial",
    "Verif.Props.C80_false_exponent",
    "Verif.Props.C80_false_uniqueID"
   ],
   "note": "false for serial numbers of more than 128 bits, public exponents below 17 and certificates with unique identifiers; the exact behaviour is given for each"
  },
  {
   "property": "C81",
   "status": "partial",
   "theorems": [
    "Verif.Props.C81_false",
    "Verif.Props.C81_partial"
   ],
   "note": "False: witness at 50 bits; undefined behaviour for every width with 1 <= K mod 32 <= 16."
  },
  {
   "property": "C82",
   "status": "partial",
   "theorems": [
    "Verif.Props.C82_partial",
    "Verif.Props.C82_exact_partial",
    "Verif.Props.C82_false"
   ],
   "note": "False: short signatures read or write outside the buffer; middle lengths are verified with an empty salt. C82_exact_partial gives the behaviour for every short length and every modulus."
  },
  {
   "property": "C83",
   "status": "partial",
   "theorems": [
    "Verif.Props.C83_partial",
    "Verif.Props.C83_false"
   ],
   "note": "false: no range check"
  },
  {
   "property": "C84",
   "status": "proved",
   "theorems": [
    "Verif.Props.C84_scalar_multiple",
    "Verif.Props.C84_point_exists",
    "Verif.Props.C84_prime"
   ],
   "note": ""
  },
  {
   "property": "C85",
   "status": "proved",
   "theorems": [
    "Verif.Props.C85_random_key"
   ],
   "note": ""
  },
  {
   "property": "C86",
   "status": "partial",
   "theorems": [
    "Verif.Props.C86_false",
    "Verif.Props.C86_partial"
   ],
   "note": "the claim is false for the code; exact behaviour by length proved"
  },
  {
   "property": "C87",
   "status": "partial",
   "theorems": [
    "Verif.Props.C87_partial",
    "Verif.Props.C87_false_sha384",
    "Verif.Props.C87_false"
   ],
   "note": "proved for SHA-256; false for SHA-384"
  },
  {
   "property": "C88",
   "status": "proved",
   "theorems": [
    "Verif.Props.C88_field",
    "Verif.Props.C88_standard"
   ],
   "note": ""
  },
  {
   "property": "C89",
   "status": "proved",
   "theorems": [
    "Verif.Props.C89_forgery",
    "Verif.Props.C89_sharp"
   ],
   "note": ""
  },
  {
   "property": "C90",
   "status": "proved",
   "theorems": [
    "Verif.Props.C90_two_bits",
    "Verif.Props.C90_detected",
    "Verif.Props.C90_undetected"
   ],
   "note": ""
  },
  {
   "property": "C91",
   "status": "partial",
   "theorems": [
    "Verif.Props.C91_partial",
    "Verif.Props.C91_false",
    "Verif.Props.C91_key_independent",
    "Verif.Props.C91_honest"
   ],
   "note": "The code violates the claim: points of low order are not rejected. Proved: the secret is zero iff u modulo the prime is one of five numbers."
  },
  {
   "property": "C92",
   "status": "partial",
   "theorems": [
    "Verif.Props.C92_partial",
    "Verif.Props.C92_exact",
    "Verif.Props.C92_unique",
    "Verif.Props.C92_false",
    "Verif.Props.C92_base_order"
   ],
   "note": "The claim is false for scalars that add up to the order of the base point. Proved: results coincide iff scalars are equal or add up to the order."
  },
  {
   "property": "C93",
   "status": "partial",
   "theorems": [
    "Verif.Props.C93_false",
    "Verif.Props.C93_partial",
    "Verif.Props.C93_predict_partial",
    "Verif.Props.C93_run_partial"
   ],
   "note": "False in the code: the state of the generator is an explicit function of any sixteen consecutive aligned bytes (proved for all states); so all later bytes, keys and salts are."
  },
  {
   "property": "C94",
   "status": "partial",
   "theorems": [
    "Verif.Props.C94_partial",
    "Verif.Props.C94_wrong",
    "Verif.Props.C94_false"
   ],
   "note": "Refuted by a number of 586783 bits with 52 prime factors (any width of at least 18337 words); exact below 7927^2 = 62837329. Nothing is proved about numbers between, in particular at the widths of RSA keys."
  },
  {
   "property": "C95",
   "status": "partial",
   "theorems": [
    "Verif.Props.C95_false",
    "Verif.Props.C95_partial",
    "Verif.Props.C95_long_partial",
    "Verif.Props.C95_pem_partial"
   ],
   "note": "False in the code for numbers of more than 4096 bits, which are cut silently; exact results proved for all keys and for PEM."
  },
  {
   "property": "C96",
   "status": "proved",
   "theorems": [
    "Verif.Props.C96_key_pair"
   ],
   "note": ""
  },
  {
   "property": "C97",
   "status": "partial",
   "theorems": [
    "Verif.Props.C97_partial",
    "Verif.Props.C97_false"
   ],
   "note": "Signatures for moduli of other than 8k bits lose their top bits; the exact signature is proved, it is accepted if nothing was cut."
  },
  {
   "property": "C98",
   "status": "partial",
   "theorems": [
    "Verif.Props.C98_partial",
    "Verif.Props.C98_false"
   ],
   "note": "The verifier clears one bit whatever the size of the modulus: good signatures are refused for moduli of other than 8k bits; exact verdict proved for every modulus."
  },
  {
   "property": "C99",
   "status": "partial",
   "theorems": [
    "Verif.Props.C99_partial",
    "Verif.Props.C99_stored_partial",
    "Verif.Props.C99_false"
   ],
   "note": "False: a certificate whose subject is in the store is never trusted; kept trust proved for distinct names."
  }
 ]
}