# Design

Machine-checked model of Caligo (`/repo`, read as text) in Lean 4.33 with Mathlib.
The Lake project is `lean/`; `lake build` there checks everything.

## Layout

* `Verif/Base/*`  - bytes, words, outcomes, list lemmas (no model content).
* `Verif/Model/*` - the model, one file per source file of the library; every definition cites the lines it models.
* `Verif/Spec/*`  - independent specifications (RFC, FIPS, NIST texts, plain arithmetic). They do not import the model.
* `Verif/Proof/*` - helper lemmas.
* `Verif/Props/*` - the property theorems, one file per area, each with `example`s showing that the hypotheses can be met.

## Modelling decisions

* `uint8_t`, `uint16_t`, `uint32_t`, `uint64_t` are `BitVec 8/16/32/64`. Sizes and indices (`size_t`) are natural numbers; where the code
  subtracts sizes or lets a size come from input, the wrap modulo 2^64 is modelled (`szSub`, the length loop of the DER reader, the length
  counters of the hash classes).
* Vectors, strings and most spans are lists of bytes. The DER reader makes spans by pointer arithmetic, so there a span is a length together with
  the rest of the array it points into (`Span` in Model/Asn1.lean); reading outside the array is undefined behaviour, reading outside the
  enclosing element but inside the array is not.
* A call yields `Except Fault a`: `Fault.ub` (undefined behaviour: out-of-bounds access, null dereference, broken precondition of a library
  function), `Fault.thrown` (a C++ exception) and `Fault.diverges` (the loop never ends; it would run until memory is exhausted).
  Functions that cannot fault are modelled as plain functions.
* Loops are structural or well-founded recursion over the same state as in the code.
* Objects are structures, methods are functions from the old object to the new object and the result. `std::map` is a list of pairs,
  `std::unordered_set<std::string>` a list of strings, `std::variant` and template arguments that select a class are an enumeration (`HashClass`).
* x86 intrinsics (AES-NI, PCLMULQDQ, shuffles) are modelled from the Intel SDM pseudo code (Model/Simd.lean); they are part of the trusted base.
* Uninitialised memory is a parameter ("junk"). In Model/Rsa.lean and Model/Hkdf.lean the buffers inside temporary hash objects are taken to be
  zero, which C03 justifies.
* Memory allocation is assumed to succeed, except where a loop would allocate without bound (`Fault.diverges`).
* Global state: the random generator is threaded through as `RandState`. The vector of test values in front of it is modelled, too.

## What is modelled

| source | model |
|---|---|
| src/md5.cpp, sha1.cpp, sha2.cpp and headers | BlockHash, Md5, Sha1, Sha2 |
| src/sha3.cpp, crc.cpp and headers | Sha3, Crc |
| src/hash.cpp, include/caligo/hash.h | Hash |
| src/base64.cpp, include/caligo/base64.h | Base64 |
| include/caligo/bignum.h | Bignum, BignumPrint |
| include/caligo/mont.h | Mont |
| include/caligo/random.h, src/random.cpp | Random, RandomSeed (build with PLATFORM_HAS_RDSEED), Threads (interleaved calls) |
| include/caligo/random_prime.h | Prime |
| include/caligo/pkcs1.h, rsa.h | Rsa |
| include/caligo/x25519.h | X25519 |
| src/aes.cpp, include/caligo/aes.h, ghash.h | Simd, Aes, Ghash |
| include/caligo/gcm.h, ctr.h, key_iv_pair.h | Gcm |
| include/caligo/legacy/cbc.h, ecb.h | Modes |
| include/caligo/chacha20.h | ChaCha20 |
| include/caligo/hkdf.h | Hkdf |
| include/caligo/Asn1.h | Asn1 |
| src/X509Certificate.cpp and header | X509, Rsa (key classes) |
| src/Truststore.cpp and header | Truststore |

Not modelled:

* timing and other side channels below the level of the source text: `Model/Leak*.lean` gives the branch outcomes, array indices and conditional choices of the functions named there, not what the compiler makes of them, caches, or instructions whose time depends on operands; the contents of memory after objects are destroyed; threads, except those that draw random values at the same time (C132);
* reading the file in `Truststore::Truststore()` (the model starts from its bytes) and the singleton `Truststore::Instance()`;
* the `printf` in the macro `FAIL()`, stream output operators;
* the instruction `rdseed` (in builds with `PLATFORM_HAS_RDSEED`, C134, its value is an argument);
* the order of initialisation of the global `object_id` constants relative to users in other translation units;
* `HKDF_UpdateSecret`, `exporter_master` and `resumption_master`, which cannot be instantiated (see Model/Hkdf.lean); the templates in
  `legacy/` cannot be instantiated with the ciphers of the library either and are modelled for an abstract cipher (see Model/Modes.lean);
* tests, benchmarks and build files.

## Trusted base

* The Lean 4 kernel (and its GMP arithmetic for `Nat` literals).
* Axioms: only `propext`, `Classical.choice`, `Quot.sound`; no `sorry`, no `native_decide`, no `bv_decide`, no own axioms. The table at the end
  lists the theorems of the manifest that need fewer.
* The hand translation of C++ into `Verif/Model`, and of the standards into `Verif/Spec`.
  As a check of the translation, all 155 expectations of the repository's tests (test/*.cpp) were evaluated in the model with `#eval`, among them the
  RSA, X25519 and certificate tests, and all hold. The 57 that the kernel evaluates quickly are in `Check/RepoTests.lean`; these are tests, not proofs.

## Properties that the code violates

The task list states what a user relies on. Where the code does not have the property, the development proves the negation on a concrete
witness and the strongest positive statement that holds (suffix `_partial`); the manifest marks these `partial`.

## Plan per property

* **C01 Hash streaming is independent of chunking.** Model the four block-hash `add` functions (one generic body, they are textually identical), SHA-3 `add` and CRC `add` with the 64-bit length counter and the real block buffer. Prove a buffer invariant by induction over the list of chunks.
* **C02 Reading a digest does not disturb the hash object.** Model digest reads as functions of the object state and a history as a list of operations; induction over histories.
* **C03 Digests do not depend on uninitialised buffer contents.** The initial buffer content is a parameter of the model; the invariant of C01 does not mention it.
* **C04 MD5 conforms to RFC 1321.** Independent RFC 1321 specification (padding, four rounds with the RFC's index/shift description); equality of compression function and padding for all inputs.
* **C05 SHA-1 conforms to FIPS 180-4.** Independent FIPS 180-4 specification (recursive message schedule, f_t, K_t); same method.
* **C06 SHA-224/SHA-256 conform to FIPS 180-4.** As C05; constants specified as fractional parts of roots of primes.
* **C07 SHA-384/SHA-512 conform to FIPS 180-4.** As C06 with 64-bit words and 128-byte blocks.
* **C08 SHA-3 conforms to FIPS 202.** Specification at the level of FIPS 202 bit arrays A[x,y,z] with rho offsets and round constants computed by the FIPS algorithms; proof lane by lane.
* **C09 Hash(name) selects the named algorithm or throws.** Model the if/else chain. The claim is false ("sha3-256" and every unknown name select SHA3-512): prove the negation and the exact dispatch.
* **C10 Hex string conversion of a digest renders exactly the digest.** Model the string conversion. False for SHA-224/384 (inherited conversion prints the untruncated digest): negation plus theorem for the other classes.
* **C11 DigestInfo prefixes are well-formed DER for the hash.** Model the constants, check against an independent DER writer; false for SHA3-224/384/512: negation plus theorem for the rest.
* **C12 CRC32 equals the bitwise polynomial definition.** Bitwise specification; the table is checked entry by entry in the kernel and lifted by a per-byte lemma.
* **C13 CRC32 detects every burst error of up to 32 bits.** CRC update is linear and invertible; algebraic proof over error patterns.
* **C14 Base64 decoding inverts encoding.** Model encoder and decoder state machines; induction over three-byte groups.
* **C15 Base64 encoding is RFC 4648 with 76-column lines.** Specification by grouping into 24-bit groups; line structure by induction over 57-byte lines.
* **C16 Base64 decoding ignores foreign characters and never fails.** Decoder factors through the list of sextets of accepted characters.
* **C17 bignum addition and subtraction are exact.** Word-list model with 64-bit accumulators; induction over words, value function into Nat.
* **C18 bignum multiplication is exact.** Schoolbook multiplication; nested induction with carry bound. Widths that are not multiples of 32 overflow the result array: modelled as UB.
* **C19 bignum comparison is numeric comparison.** From C17 and injectivity of the value function.
* **C20 bignum byte conversion is little-endian and lossless up to the width.** Value of byte strings; induction over words.
* **C21 bignum shifts, slices, bit and swap operations have their arithmetic meaning.** Induction over words; out-of-range indices are UB outcomes.
* **C22 bignum width conversion preserves the value when it fits.** False for source widths that are not multiples of 32 (partial top word dropped): negation plus theorem for multiples of 32.
* **C23 naive_reduce computes the remainder.** False in general (only 32*shift+1 subtraction steps): negation plus exact precondition c < 2 p 2^(32 shift); p = 0 diverges.
* **C24 Modular inverse modulo a power of two.** Newton iteration; induction over the width recursion.
* **C25 Montgomery reduction is correct.** Arithmetic over Nat/ZMod using C17-C24.
* **C26 Montgomery conversion round-trips.** From C25; the returned number is n (not 0) for non-zero multiples of n, so the exact statement needs that case.
* **C27 Montgomery multiplication and exponentiation compute in Z/n.** Loop invariant over the exponent bits.
* **C28 Montgomery addition computes in Z/n.** False (carry dropped): negation plus theorem when the representatives do not overflow.
* **C29 Montgomery exponentiation by a 32-bit exponent uses the exponent.** False (exponent ignored): negation plus theorem for e = 65537.
* **C30 RSA public operation computes m^e mod n.** From C27 and C29.
* **C31 RSA decryption inverts RSA encryption.** Fermat and Chinese remainder argument, then C30.
* **C32 MGF1 conforms to RFC 8017.** Induction over blocks with the four-byte counter.
* **C33 PKCS#1 v1.5 encoding conforms to RFC 8017.** Model of the size_t loop bound, including wrap-around (endless growth = divergence outcome). False for short sizes: negation plus theorem for the valid range.
* **C34 PKCS#1 v1.5 signature verification accepts exactly the valid signatures.** From C30/C33; acceptance without the sig < n test is a finding; theorem for sig < n.
* **C35 PKCS#1 v1.5 signatures produced by the library verify.** False (byte order and stripping of leading zero octets): negation plus what holds for the reversed signature.
* **C36 RSASSA-PSS signatures produced by the library verify.** From C31/C32, list reasoning over the encoded message.
* **C37 RSASSA-PSS verification applies EMSA-PSS-VERIFY to s^e mod n.** Independent EMSA-PSS-VERIFY, both directions.
* **C38 PrivateKey::sign and PublicKey::validateSignature agree for every TLS scheme.** False for the SHA-384/512 schemes (message is hashed with SHA-256): refuted on a concrete key and message; acceptance characterised by an equation between two salted digests; theorem for SHA-256.
* **C39 Primality test is exact below 7920.** Whole-table kernel check lifted by interval lemma.
* **C40 Primality test never rejects a prime.** Miller-Rabin theorem in ZMod p over the Montgomery model.
* **C41 Accepted numbers are strong probable primes with no small factor.** Unfold acceptance through C27.
* **C42 random_prime returns an odd, full-length probable prime.** Loop as a relation on the random stream; invariant on set bits.
* **C43 generate_random fills every element with one common byte stream.** Induction over chunks of the output.
* **C44 The random generator has full period.** Hull-Dobell argument modulo 2^64.
* **C45 Fresh processes generate different secrets.** False (fixed seed, no entropy source unless PLATFORM_HAS_RDSEED): prove the constants.
* **C46 X25519 field arithmetic is exact modulo 2^255-19.** From C17/C18 with folding 2^256 = 38 modulo p.
* **C47 X25519 field values compare modulo the prime.** applyModulus exact; `!=` compares representations: negation plus theorem for canonical operands.
* **C48 X25519 field inversion.** Addition chain exponent p-2, primality of 2^255-19 by Lucas certificate in the kernel.
* **C49 X25519 conforms to RFC 7748.** Independent RFC 7748 specification over ZMod p; top bit of u is not masked: negation plus theorem for u < 2^255.
* **C50 X25519 key agreement.** Montgomery curve as a Mathlib Weierstrass curve over the algebraic closure; ladder computes x(kP); group commutativity.
* **C51 X25519 output is canonical and insensitive to clamped key bits.** From C47/C49.
* **C52 AES conforms to FIPS 197.** AES-NI instructions modelled from the Intel SDM; FIPS 197 specification with S-box computed from GF(2^8).
* **C53 AES encryption is a permutation.** Inverse cipher steps.
* **C54 GHASH multiplication is multiplication in GF(2^128).** Bilinearity plus basis.
* **C55 GCM encryption conforms to SP 800-38D.** Generic in the block cipher; SP 800-38D specification. IV lengths 1-7 and 9-11 give an empty result: negation plus theorem for the rest.
* **C56 GCM decryption inverts encryption over whole sessions.** Induction over the message list.
* **C57 GCM decryption accepts exactly the recomputed tag.** Unfold Decrypt.
* **C58 GCM never reuses a counter block within a session.** Arithmetic on counter blocks.
* **C59 GCM does not release plaintext or lose synchronisation on a forged message.** False (plaintext is returned, counter advances): negation plus what holds.
* **C60 CTR mode encrypts with the AES counter keystream.** False (vector::resize zero-fills the reserved bytes, keystream is all zero): negation, Encrypt = identity.
* **C61 CBC and ECB decryption invert encryption.** ECB holds; CBC decryption lacks the chaining xor: negation plus theorem.
* **C62 ChaCha20 conforms to RFC 8439.** Independent RFC 8439 block function; stream invariant over chunks.
* **C63 ChaCha20 decryption inverts encryption under any chunking.** From C62.
* **C64 ChaCha20 does not reuse keystream blocks.** False after 2^32 blocks: negation plus theorem below.
* **C65 HMAC conforms to RFC 2104.** False for hashes whose block is not twice the digest and for long keys: negation plus theorem.
* **C66 HKDF-Expand conforms to RFC 5869.** Induction over blocks; no length check: negation plus theorem.
* **C67 HKDF-Expand-Label encodes HkdfLabel unambiguously.** Encoding injectivity.
* **C68 TLS 1.3 key schedule functions follow RFC 8446.** Unfold to an independent RFC 8446 transcription.
* **C69 DER reading inverts DER writing.** DER writer as specification; induction over the list.
* **C70 DER reading never touches memory outside the buffer.** False: reads past the end are UB outcomes in the model; negation plus exact condition for safety.
* **C71 Certificate dates are converted to the correct Unix time.** Days-from-civil specification; false from 2100-03-01 and for 1950-1969: negation plus theorem.
* **C72 Every certificate of a PEM bundle is returned.** False: last certificate lost, first duplicated: negation plus theorem.
* **C73 Distinguished names are compared faithfully.** False: string rendering is not injective and unknown attributes give the empty name: negation plus theorem.
* **C74 Certificate verification checks nesting and signature.** Unfold verify.
* **C75 Truststore::trust is sound.** Loop invariant: every certificate in the local map chains to the store.
* **C76 Truststore::trust always terminates.** Variant: number of active certificates decreases; the model function is total by well-founded recursion.
* **C77 Truststore::trust is complete and independent of certificate order.** Fixpoint argument with distinct subjects.
* **C78 Truststore lookups reflect the history of additions.** Map as association list; induction over the history.
* **C79 Only certificate authorities can issue certificates.** False: verify does not look at the issuer's extensions: negation.
* **C80 Parsed certificates carry the encoded fields.** DER certificate writer as specification, parse of write.
* **C81 Montgomery arithmetic at widths that are not multiples of 32.** Model as for C24-C29 at width K; refuted at K = 50, and undefined behaviour proved for every K with 1 <= K mod 32 <= 16.
* **C82 PSS signatures that are too short for the hash are refused.** False (empty signature reads before the buffer): negation plus the exact behaviour by length.
* **C83 PSS signatures are unique modulo the modulus range.** False (no range check): negation plus invariance of the verdict modulo n.
* **C84 X25519 is scalar multiplication on curve25519.** Weierstrass curve of Mathlib with a2 = 486662, a4 = 1; invariant of the ladder: the two projective pairs represent u(mP) and u((m+1)P), proved from the differential addition formulas and the group law of Mathlib, with all exceptional cases (infinity, 2-torsion, u = 0).
* **C85 Random X25519 private keys are clamped.** normalize_spec on the drawn number; bits by Nat.testBit.
* **C86 AES keys of the wrong size are refused.** False (no size check): negation plus the exact behaviour by length.
* **C87 The TLS 1.3 key schedule is the standard one for both TLS hash functions.** SHA-256: proved by composing the HMAC, expand and label theorems. SHA-384: the library HMAC pads to 96 instead of 128 bytes; negation with a kernel-evaluated handshake secret. HKDF_UpdateSecret, exporter_master and resumption_master cannot be instantiated (see Model/Hkdf.lean) and so have no behaviour to model.
* **C88 The blocks of GCM form a field.** The registers map injectively into the quotient of the polynomials over Z/2 by x^128+x^7+x^2+x+1 (Mathlib AdjoinRoot), sums to sums and products to products. Irreducibility by Rabin's criterion: x^(2^128) = x by 128 kernel-checked squarings, x^(2^64) - x has an explicit inverse.
* **C89 A forged GCM message is accepted for few hash subkeys only.** GHASH is the value at H of a polynomial whose coefficients are the blocks; the length block makes the encoding injective; a non-zero polynomial over a field has at most as many roots as its degree. The bound is attained (C89_sharp).
* **C90 CRC32 detects every double bit error.** The division step is linear; a difference of one bit returns to itself after n steps iff x^n = 1 modulo the polynomial; the order of x is 2^32-1 (kernel-checked powers for the five prime factors).
* **C91 The X25519 shared secret is never all zero.** False (code violates it): the code does not reject points of low order. Exact truth proved: the secret is zero iff the residue is one of five listed numbers. Proof: Frobenius-fixed and Frobenius-negated points over the algebraic closure form finite groups of at most 2p+1 elements; points of order 8, l, 4, l' found with the ladder give their orders; l and l' are prime by Lucas certificates; the equation 8P = 0 is solved by three doublings and non-residues.
* **C92 Different X25519 private keys have different public keys.** False: scalars m and l - m give the same public key, and both can be clamped. Exact truth proved: results coincide iff the scalars are equal or add up to the prime order (l on the curve, l' on the twist).
* **C93 Observed random bytes do not give away later ones.** False: the state is recovered from sixteen bytes by an explicit function. Three integer linear forms with coefficients below 2^22 that vanish modulo 2^64 on (1, A, A^2) give the unknown lower halves of three states; correctness for all states by linear integer arithmetic. Negation plus the recovery theorem for every run of at least sixteen bytes.
* **C94 The primality test accepts primes only.** Below 7927^2 exactness follows from C41 (no prime divisor below 7920, 7927 being the next prime). Beyond that the claim is refuted by a Carmichael number whose prime factors p are 1 modulo all odd bases, 3 modulo 4 and equal modulo 8, so that all bases have the same quadratic character modulo all factors (quadratic reciprocity). The number has 586783 bits and 52 prime factors, whose primality the kernel checks with Pocklington's test; smaller counterexamples exist in all likelihood, but none is proved at the widths that the library is used with.
* **C95 Private key files are read completely.** False beyond 4096 bits (the numbers are cut silently): negation with a 4097-bit modulus, plus the exact result for all keys from the DER reader theorems and the PEM search theorems.
* **C96 A key file and a certificate for the same key pair work together.** Composition of C80, C95 and C38; the two parsed moduli are equal lists of words because their values are.
* **C97 PSS signatures are accepted by the library for moduli of every bit length.** False. C97_claim and C97_false: the 734 bit modulus (2^127-1)(2^607-1) with exponent 5, evaluated through the general theorem. C97_partial gives the exact signature for every size: EMSA-PSS-ENCODE (written from RFC 8017 in Spec/PssSize.lean) for 8*floor(bits/8)-1 bits, raised to d, cut to floor(bits/8) bytes; it is accepted if nothing was cut.
* **C98 PSS verification follows RFC 8017 for moduli of every bit length.** False. C98_claim and C98_false: a good signature for a 734 bit modulus that is refused. C98_partial: the exact verdict for every modulus (the encoding is checked for eight bits per signature byte, without the bounds on the modulus that C37 needs), equality with the standard for whole bytes, and soundness for the sizes 2 to 7 mod 8 when the power has fewer bits than the modulus.
* **C99 More trusted certificates do not make a trusted certificate untrusted.** False. C99_claim and C99_false: a parsed chain of three certificates that is trusted (chain_demo) and whose leaf is then added. C99_stored_partial: a certificate whose subject is in the store is never trusted (induction over the loop). C99_partial: trust is kept if the names are distinct and verifications do not fault, from the soundness theorem C75 and the completeness theorem C77_partial.
* **C100 A certificate applies to the host names of its subjectAltName extension.** False. C100_claim and C100_false with a certificate whose extension names another host than the common name. C100_partial: for every certificate and all extensions the common name, byte for byte, is the only name it applies to. C100_empty_partial: without a common name the empty name is accepted.
* **C101 Printing a bignum stays inside its buffer and loses nothing.** Model of the character buffer (strlen, sprintf with the terminator, stores that fault outside) in Model/BignumPrint.lean; loop invariant: the buffer starts with the text of the words so far and a terminator. The reader of hexadecimal numbers is in Spec/HexNumber.lean. Injectivity follows.
* **C102 The sizes that hash objects report are true.** Length of the digest by cases; conformance from C01 and C04-C08, C12 with the bound given by MaxLength().
* **C103 A signature does not give away private keys that are made later.** False. C103_claim and C103_false. C103_partial: for every key pair of whole bytes, message, PSS scheme and generator state an explicit function of public key and signature gives the next private key: the salt is recovered from s^e mod n (salt_recovered), the generator state from its last sixteen bytes (C93_run_partial).
* **C104 Certificate dates are ordered as the calendar is.** False before 1970: C104_claim and C104_false; C104_early_partial: a date before 1970 always compares as later than any date from 1970 on. C104_partial: order and equality are kept from 1970 on, although the conversion is not exact after 2100 (the error grows monotonically).
* **C105 A certificate whose issuer has no RSA key is refused.** Claim refuted (`C105_false`, `C105_attack`: from the bytes of a certificate with a P-256 key and of a forged certificate to the fault in `trust`). Exact truth: every well-formed certificate with a key of another kind parses to an object without key (`C105_key_partial`), such an issuer refuses if and only if the validity intervals are not nested and is dereferenced otherwise (`C105_partial`), and any certificate naming it as issuer makes `trust` fault (`C105_trust_partial`).
* **C106 The two signature algorithm fields of an accepted certificate agree.** Claim refuted (`C106_false`: a certificate that says SHA-512 inside and is accepted with a SHA-256 signature). Exact truth: the inner field influences no field of the object (`C106_fields_partial`), and for every content of it the certificate is accepted if and only if the signature is good with the outer algorithm (`C106_partial`).
* **C107 Private keys are drawn from a space of at least 2^128 values.** Claim refuted (`C107_false`). Exact truth: there are exactly 2^63 reachable states (`C107_states_partial`) and exactly 2^63 possible X25519 private keys (`C107_partial`, since clamping leaves enough bits to recover the state), and at most 2^63 primes for every size (`C107_primes_partial`).
* **C108 From the bytes of certificates to the verdict: trust means a chain of RSA signatures.** `C108_sound` and `C108_complete`, both stated on specification-level certificates (`Item`) and their bytes; proved by composing C80, C73, C74 and C75/C77. The three-certificate chain of C79 satisfies all hypotheses of both (`C108_demo`, `C108_demo_complete`).
* **C109 Asking the trust store again gives the same answer.** Simulation: blanked entries are always passed over, accepted ones are never blanked because their name is in the map; induction over the passes of the first run, with the existing bound on passes.
* **C110 CRC32: four bytes anywhere fix the checksum, in exactly one way.** Injectivity is C13 for bursts of 32 bits; surjectivity by counting.
* **C111 Hashing can be continued from a digest.** The object set up from the digest satisfies the invariant 'has absorbed the padded message' of C01, so its continuation is the digest of the longer message; the words are read back from the bytes.
* **C112 The permutation of SHA-3 loses nothing.** Props/KeccakPerm.lean. The four step mappings of FIPS 202 are injective (theta through the column parities and the sixth iterate of its recurrence, rho and pi as index permutations, chi row by row, iota as an exclusive or); the existing refinement of the code to FIPS 202 carries this over; finiteness gives surjectivity. Theorems C112_permutation, C112_add, C112_block.
* **C113 RSA keys of certificates are used as encoded or refused.** Props/KeySizes.lean, Proof/KeySizes.lean. False: of longer moduli and exponents the low 4096 bits are used (C113_false_truncated), and a modulus that is a multiple of 2^4096, such as 0, makes the constructor of the Montgomery state run for ever (C113_false_zero). C113_partial gives the outcome for every modulus and exponent. C113_forge_partial shows what truncation means: if the low 4096 bits form a prime, a signature accepted for any certificate is computed from the public key alone.
* **C114 The fields of a verified certificate are determined by the bytes its issuer signed.** Props/SignedFields.lean, Proof/Extend.lean. False (C114_false): asn1_view::read does not compare the length of an element with the element that contains it, so the BIT STRING with the key may reach beyond the TBSCertificate into the algorithm, the signature and bytes appended to the file. C114_forge_partial: with any names, dates and serial number there is a TBSCertificate such that whoever has one certificate with it can append any modulus and has a certificate with that key which verify treats as before. C114_partial: every TBSCertificate that parses with nothing behind it gives the same fields whatever follows (shown for all parsers by a lemma on longer arrays). C114_der_partial: this covers all DER encoded certificates of C80.
* **C115 A GCM ciphertext and tag are accepted under one key only.** Refuted: C115_false with two AES-128 keys. C115_partial: for any two sessions with different hash subkeys, any additional data and any whole ciphertext blocks, exactly one further block makes a message that both accept with the same tag (field laws of C88 and the session invariant of C55).
* **C116 What two GCM messages under one nonce reveal.** C116_plaintexts, C116_subkey, C116_forge from the session invariant and the polynomial form of GHASH.
* **C117 Every block has exactly one chaining value that it leaves unchanged.** Every round is injective on a finite set, so the rounds are a bijection and exactly one value is mapped to zero (C117_fixed); induction over the repetitions (C117_repeat).
* **C118 What is accepted twice gives a hash collision.** Invert the model of the validators without any assumption on the modulus (only the width of the result is needed), show that the low bytes of the encoded message are the digest and that the whole encoding parses in one way.
* **C119 X25519: branches and addresses do not depend on the private key.** A version of every function involved that also gives the events (branch outcomes, array indices, choices of values); it computes the same results; a relational judgement over pairs of runs, by induction over the loops.
* **C120 RSA private operation: branches and addresses do not depend on the key.** As for X25519, with the Montgomery arithmetic; the lengths of all intermediate numbers are shown to depend on the width only.
* **C121 The choices in exp reveal the private exponent.** Refute with a concrete key pair and prove the exact truth: equal events imply equal exponents, for all moduli and messages. The runs are split into their parts by the equal lengths that C120 gives.
* **C122 The choices in X25519 depend on the private key.** Refute with two keys; split the two runs at the third pass and evaluate there. C119 is the part that holds.
* **C123 AES-GCM with a 12-byte IV: all events depend on lengths only.** Event versions of AES and GCM; relational proof; the last four bytes of the counter do not depend on the secret with such an IV, so the early returns of ctr_inc do not either.
* **C124 The comparison of tags reveals the right tag byte by byte.** Model the comparison of std::array as std::equal describes it; prove that the events are equal exactly when the number of agreeing leading bytes is; prove that a procedure that sees only the number of events of each run finds the accepted tag.
* **C125 ctr_inc reveals the counter for IVs that go through GHASH.** Refute with two keys. Prove that from 255 blocks on, equal events imply equal last bytes of J_0: the events of ctr_inc are prefix free, everything else has the same events.
* **C126 Hashing, HMAC and the key schedule: events depend on lengths only.** Leak model with checked accesses (Model/LeakHash.lean); erasure to the plain model (Proof/LeakHash, Proof/LeakKdf); relational induction over the loops (Proof/LeakHashSame).
* **C127 ChaCha20: events depend on lengths only.** Leak model in Model/LeakHash.lean; erasure and relational induction over pieces; composition with C62.
* **C128 CRC32 reveals the data.** Refute; prove that the map from data to events is injective, by induction: the index is the low byte of the state xor the next byte.
* **C129 base64 and base64d reveal the data.** Refute; prove injectivity of data to events by induction over groups of three bytes, resp. over characters. Erasure to the plain model shows that no table is left.
* **C130 Generating a prime does not reveal the prime through what the program does.** Model/LeakPrime.lean writes the test and random_prime in the event monad, Proof/LeakPrime.lean proves that forgetting the events gives the model of the code. Proof/LeakSync.lean is a relational logic for 'equal prefixes of events force equal facts'; Proof/LeakPrimeSync.lean and Proof/LeakPrimeTest.lean follow it through Montgomery set-up, exponentiation and the bases; Props/SideChannelPrime.lean proves C130_test_partial, C130_partial and C130_false.
* **C131 The branches and addresses of generating a prime do not depend on the prime.** As for C130, with the view that forgets picks; Euler's criterion and quadratic reciprocity of Mathlib turn the comparisons with 1 and n-1 into statements about squares. Theorems C131_partial, C131_exact_partial, C131_false in Props/SideChannelPrime.lean.
* **C132 Threads that draw random values at the same time do not disturb each other.** Model/Threads.lean: a thread inside generate_random_value is a program counter and its local values, each load and each store of cval is one step, a schedule is a list of thread numbers. Props/Threads.lean: simulation of threads in step by a single thread, and an invariant over all schedules that counts stores against completed calls. Theorems C132_atomic_partial, C132_same_partial, C132_repeat_partial, C132_any_partial, C132_keys_partial, C132_false.
* **C133 The MD5 and SHA-1 classes have the published collisions, and a signature over one message is one over the other.** General lemma: messages of whole blocks with the same length and the same chaining value have equal digests with every suffix (from resumed_digest of C108). The chaining values of the explicit messages are computed in the kernel. Theorems C133_md5, C133_sha1, C133_pss, C133_spec in Props/KnownCollision.lean.
* **C134 With the hardware generator every value is equally likely.** Model/RandomSeed.lean takes the hardware value as an argument. Props/RandomSeed.lean: a reduced basis of the lattice of the multiplier has only one vector whose entries are below 2^32, so at most two states with a given upper half have successors with a given upper half; twice this gives 4, induction gives 4^n. Theorems C134_value_partial, C134_sequence_partial, C134_unavailable_partial, C134_false.
* **C135 Reading certificates and keys comes to an end.** Non-termination is an outcome of the model; the loops of the reader carry a bound that yields it when used up. Proof/Termination.lean: every read advances by two bytes, so no bound is used up, and montNew does not end exactly for the modulus 0. Props/Termination.lean: C135_certificate_partial, C135_oid_partial, C135_bundle_partial, C135_private_partial, C135_false, C135_false_private.
* **C136 The bytes of an accepted certificate cannot be changed unnoticed.** Props/Malleable.lean: reading an element is unaffected by the end of the span moving away (read_grow), so appended bytes change nothing (C136_append_partial); the reader of the signature ignores tag, parameters and unused bits (C136_unsigned_partial); C136_false appends a byte to a certificate accepted under a concrete key.
* **C137 Generating a prime comes to an end.** Proof/LcgReach.lean: with m steps at a time the generator reaches exactly the states that agree modulo gcd(m, 2^64). Props/PrimeEnds.lean: C137_iff. Props/PrimeEndsSmall.lean: for every class of states a state that draws a prime, with Pocklington certificates; C137_small_partial. Larger widths would need prime certificates for numbers that cannot be chosen freely.
* **C138 A hash collision is a collision of processChunk.** Props/MerkleDamgard.lean: the final state is the iteration of processChunk over the blocks of the padded message (from Proof/BlockHash), the output is injective (parse functions of Props/LengthExtension), messages of different length end in different blocks, messages of the same length are compared backwards. The published MD5 and SHA-1 collisions of C133 meet the hypotheses.
* **C139 What the RSA operations without padding allow.** Props/RsaRaw.lean from rsaep_spec and rsadp_spec; Proof/RsaFixed.lean counts fixed points with the Chinese remainder theorem and the cyclic groups of units.
* **C140 What ciphertexts of the unauthenticated modes show about the plaintexts.** Props/Reveal.lean from C62_conforms, inPlace_loop and cbcEncrypt_spec.
* **C141 Received X25519 values that lead to the same shared secret.** Props/X25519Same.lean: clamped scalars are 8s with s invertible modulo both large prime orders; adding the point of order two inverts the u-coordinate. C141_false gives nine and its inverse as a counterexample to the full claim, C141_partial the exact truth.
* **C142 What AES round keys tell about the key.** Props/RoundKeys.lean: every step of the schedule is injective in the word it replaces (words_inj); the pairs of AES-256 are moved by injective maps of a finite set.
* **C143 The secrets of the key schedule determine what they were made from.** Props/ScheduleBinding.lean: a request for one digest is one call of HMAC (expandLabel_one); C118_hmac and C67_injective at every step; the colliding strings are named (CollideIn over the strings that are hashed).
* **C144 How many X25519 shared secrets there are.** Proof/Secrets25519.lean: eight times a point lies in the cyclic group of prime order (index divides eight), and the u-coordinates of its non-zero points up to sign, of curve and twist, and zero are all results; Props/X25519Same.lean carries this to the words that X25519 returns.
* **C145 What an observer sees of a whole RSA signature.** Model/LeakSign.lean: the functions with events; Proof/LeakSign.lean: they compute what the functions without events compute, and two runs with inputs of the same sizes have the same events (the MGF1 counter is the same in both, the removal of zero bytes is decided by the signature); Props/SideChannelSign.lean: theorems. Not included: how generate_random draws the salt.
* **C146 Observed random bytes do not give away earlier ones.** Props/RandomPast.lean: the linear congruential step has an inverse, so that the state after the observed bytes (C93) can be rewound to the state before any earlier call. False; proved: sixteen bytes determine all bytes drawn before them.
* **C147 A signature does not give away private keys that were made earlier.** Props/RandomPast.lean: the salt that every verifier takes out of the signature gives the state of the generator, which is rewound over the bytes in between to the state the private key was drawn from. False; proved: an explicit function of the signature and the public key is the private key, always; the shared secret of the key exchange follows.
* **C148 Colliding blocks multiply: k of them give 2^k messages with one digest.** Props/Multicollision.lean: induction over the list of pairs with the chaining value as the invariant; pigeonhole for the second hash and for the existence of the pairs.
* **C149 Differences spread through AES: 25 S-box look-ups in any four rounds.** Props/AesTrail.lean, Proof/AesTrail.lean: the branch number of MixColumns is 5 because its minors do not vanish (minors over all bytes in the kernel, lifted by linearity); then the counting argument over columns of the wide trail strategy. The S-box bound is a table over all 255 differences, lifted by an invariant of the tally.
* **C150 A SHA-3 collision with equal final states is an inner collision, and an inner collision gives collisions with every suffix.** Props/InnerCollision.lean: absorbing one block is an exclusive or into the first lanes followed by the permutation (a bijection by C112), so equal states after a block mean equal inner lanes before it; the digest is the first bytes of the state after the padded message, and the padding can be told from the message. Existence of inner collisions by counting.
* **C151 The work that Truststore::trust does is bounded by the number of certificates.** Props/TrustWork.lean: the loop with a note of every pass, shown to compute the same result; a certificate that has been checked is settled (its name is known or it is blank), settled certificates are never checked again; induction over the passes. The counts are of calls of verify and passes, not of time inside verify.
* **C152 The rounds of ChaCha20 lose nothing, and the constants keep its columns apart.** Props/ChaChaRounds.lean: every half of a quarter round can be undone, so the rounds are injective on a finite set; the input words determine key, counter and nonce; the rounds on explicit columns.
* **C153 CRC32 detects every triple bit error in messages of up to 11454 bytes.** The difference of the CRCs is a sum of three powers of x modulo the polynomial (CrcThreeBits.lean). Three powers cancel only if two powers below x^91639 agree except for the constant coefficient; the kernel puts all 91639 into search trees (CrcTriple.lean) and meets no number twice. A sum of three powers that cancels gives the undetected error in 11455 bytes (C153_undetected).
* **C154 Different HMAC keys give different MACs.** False: a key and the key with a zero byte at the end agree on all messages (C154_false). Exactly: keys that agree in the first 2 * hashsize bytes, missing ones counted as zero, agree on all messages (C154_same_partial), and any other two keys that agree on one message give an explicit hash collision (C154_partial).
* **C155 CRC32 respects exclusive or, and a message followed by its checksum has a fixed one.** Model/Crc. One table step is eight division steps on the register xored with the byte (Proof/Crc), which is linear (Proof/CrcOrder); induction over the bytes. The register after the checksum is eliminated is the constant for 32 ones.
* **C156 The steps of SHA-3 treat all bit positions alike, and only the round constants do not.** Model/Sha3. Each step is written with exclusive or, and, complement and rotations, all of which commute with rotations; the 24 constants are compared with their 63 rotations.
* **C157 AES rounds treat the columns alike, the key schedule does not.** Props/AesSym. ShiftRows, SubBytes and MixColumns commute with the rotation by index arithmetic on bytes, and the loop by induction. For the schedules: a step that remains a step after rotation forces the four columns to sum to zero; four such steps in a row force the columns to be zero; two zero round keys in a row contradict the S-box at zero.

## Status

* partial (70): C09, C10, C100, C103, C104, C105, C106, C107, C11, C113, C114, C115, C121, C122, C124, C125, C128, C129, C130, C131, C132, C134, C135, C136, C137, C141, C146, C147, C154, C22, C23, C26, C28, C29, C33, C34, C35, C38, C45, C47, C49, C55, C59, C60, C61, C64, C65, C66, C70, C71, C72, C73, C74, C76, C77, C79, C80, C81, C82, C83, C86, C87, C91, C92, C93, C94, C95, C97, C98, C99
* proved (87): C01, C02, C03, C04, C05, C06, C07, C08, C101, C102, C108, C109, C110, C111, C112, C116, C117, C118, C119, C12, C120, C123, C126, C127, C13, C133, C138, C139, C14, C140, C142, C143, C144, C145, C148, C149, C15, C150, C151, C152, C153, C155, C156, C157, C16, C17, C18, C19, C20, C21, C24, C25, C27, C30, C31, C32, C36, C37, C39, C40, C41, C42, C43, C44, C46, C48, C50, C51, C52, C53, C54, C56, C57, C58, C62, C63, C67, C68, C69, C75, C78, C84, C85, C88, C89, C90, C96

`partial` always means: the claim is refuted for the code as it is, and what does hold is proved (C137: see the note in the manifest).

## Axioms per theorem

Printed by `#print axioms` for every theorem of the manifest (`Verif.Props.` omitted).

* `[propext]` (3 theorems): `C22_false`, `C52_inverse`, `C78_add`
* `[propext, Quot.sound]` (52 theorems): `C109_blanked`, `C117_repeat`, `C119`, `C119`, `C119_hard`, `C11_false`, `C11_partial`, `C11_violations`, `C123_result`, `C126`, `C126_hmac`, `C127`, `C128_hmac`, `C128_partial`, `C129_decode_partial`, `C132_atomic_partial`, `C132_keys_partial`, `C132_repeat_partial`, `C132_same_partial`, `C134_false`, `C134_unavailable_partial`, `C151`, `C152_columns`, `C157_columns`, `C157_equal`, `C21_shr1`, `C23_false`, `C26_false`, `C28_false`, `C29_false`, `C32_long`, `C42_product`, `C45_false`, `C45_partial`, `C47_false`, `C59_counterexample`, `C60_constructor`, `C63_constructor`, `C65_long_keys_truncated`, `C66_extract`, `C70_false`, `C70_false_modulus`, `C70_false_nested`, `C70_false_truncated`, `C70_partial`, `C75`, `C78_get`, `C78_list`, `C79_issuer_fields`, `C81_false`, `C86_false`, `C99_stored_partial`
* `[propext, Classical.choice, Quot.sound]` (411 theorems): `C01_chunking_independent`, `C01_two_chunkings`, `C02_read_then_continue`, `C02_reads_do_not_disturb`, `C03_uninitialised_buffer_irrelevant`, `C04_md5_rfc1321`, `C05_sha1_fips180`, `C06_sha224_fips180`, `C06_sha256_fips180`, `C07_sha384_fips180`, `C07_sha512_fips180`, `C08_sha3_fips202`, `C09_digest_partial`, `C09_false`, `C09_partial`, `C09_violations`, `C100_empty_partial`, `C100_false`, `C100_partial`, `C101_injective`, `C101_print`, `C102_hashsize`, `C102_maxLength`, `C103_false`, `C103_partial`, `C104_early_partial`, `C104_false`, `C104_partial`, `C105_attack`, `C105_false`, `C105_key_partial`, `C105_partial`, `C105_trust_partial`, `C106_false`, `C106_fields_partial`, `C106_mixed`, `C106_partial`, `C107_false`, `C107_partial`, `C107_primes_partial`, `C107_states_partial`, `C108_complete`, `C108_demo`, `C108_demo_complete`, `C108_sound`, `C109`, `C10_false`, `C10_partial`, `C110`, `C110_second`, `C111_digest`, `C111_string`, `C112_add`, `C112_block`, `C112_permutation`, `C113_false_truncated`, `C113_false_zero`, `C113_forge_partial`, `C113_partial`, `C114_der_partial`, `C114_false`, `C114_forge_partial`, `C114_partial`, `C115_false`, `C115_partial`, `C116_forge`, `C116_plaintexts`, `C116_subkey`, `C117_fixed`, `C118_certificates`, `C118_hmac`, `C118_one_hash`, `C118_pkcs1`, `C118_pss`, `C120`, `C121_false`, `C121_partial`, `C122_false`, `C123`, `C124_aes_partial`, `C124_false`, `C124_forge_partial`, `C124_partial`, `C125_false`, `C125_partial`, `C126_hkdf`, `C126_memory`, `C127_memory`, `C128_false`, `C129_encode_partial`, `C129_false`, `C12_crc32_bitwise`, `C130_false`, `C130_partial`, `C130_test_partial`, `C131_exact_partial`, `C131_false`, `C131_partial`, `C132_any_partial`, `C132_false`, `C133_md5`, `C133_pss`, `C133_sha1`, `C133_spec`, `C134_sequence_partial`, `C134_value_partial`, `C135_bundle_partial`, `C135_certificate_partial`, `C135_false`, `C135_false_private`, `C135_oid_partial`, `C135_private_partial`, `C136_append_partial`, `C136_false`, `C136_unsigned_partial`, `C137_iff`, `C137_small_partial`, `C138_collision`, `C138_truncated`, `C139_blind`, `C139_common`, `C139_fixed`, `C139_product`, `C139_small`, `C13_crc32_detects_bursts`, `C13_four_bytes`, `C140_cbc`, `C140_chacha`, `C140_ecb`, `C141_false`, `C141_inverse`, `C141_key_independent`, `C141_partial`, `C142_aes128`, `C142_aes256`, `C142_any128`, `C142_any256`, `C143_finished`, `C143_handshake`, `C143_master`, `C143_session`, `C143_traffic`, `C144_count`, `C144_same_set`, `C145_pkcs1`, `C145_pss`, `C145_sign`, `C146_bytes_partial`, `C146_false`, `C146_partial`, `C147_false`, `C147_partial`, `C147_secret_partial`, `C148`, `C148_cascade`, `C148_exists`, `C149_aes128`, `C149_aes256`, `C149_four`, `C149_sbox`, `C149_two`, `C14_encoding_injective`, `C14_round_trip`, `C150_build`, `C150_collision`, `C150_exists`, `C150_states`, `C152_block`, `C152_constants`, `C152_distinct`, `C152_rounds`, `C153_detected`, `C153_undetected`, `C154_false`, `C154_partial`, `C154_same_partial`, `C155_affine`, `C155_change`, `C155_combine`, `C155_parts`, `C155_residue`, `C156_broken`, `C156_symmetric`, `C156_without`, `C157_schedule128`, `C157_schedule256`, `C15_alphabets`, `C15_encoding`, `C15_line_length`, `C16_foreign_ignored`, `C16_insert_foreign`, `C16_length`, `C16_value`, `C17_add`, `C17_sub`, `C18_mul`, `C18_mulWord`, `C18_mul_width`, `C18_square`, `C19_compare`, `C20_as_bytes`, `C20_bytes_roundtrip`, `C20_of_bytes`, `C20_roundtrip`, `C20_words`, `C21_bits`, `C21_bitwise`, `C21_ctimeSwap`, `C21_neg`, `C21_ofU32`, `C21_shlWord`, `C21_slice`, `C22_exact`, `C22_partial`, `C23_full_words_partial`, `C23_otherwise`, `C23_partial`, `C23_zero_diverges`, `C24_inverse`, `C25_constants`, `C25_redc`, `C26_partial`, `C26_residue_partial`, `C27_arith`, `C28_partial`, `C29_partial`, `C30_multiple`, `C30_rsaep`, `C31_inverse`, `C32_mgf1`, `C33_false`, `C33_partial`, `C34_false`, `C34_partial`, `C34_unique`, `C35_accept_false`, `C35_false`, `C35_partial`, `C36_sign_verify`, `C37_verify`, `C38_false`, `C38_partial`, `C38_sha256`, `C39_small`, `C40_primes_pass`, `C41_accepted`, `C41_bases`, `C42_random_prime`, `C43_stream`, `C44_distinct`, `C44_period`, `C46_add`, `C46_mul`, `C46_mulWord`, `C46_square`, `C46_sub`, `C47_applyModulus`, `C47_partial`, `C48_inverse`, `C49_exact`, `C49_false`, `C49_partial`, `C50_base_point`, `C50_key_agreement`, `C51_canonical`, `C51_insensitive`, `C52_aes128`, `C52_aes256`, `C53_aes128`, `C53_aes256`, `C54_commutative`, `C54_multiplication`, `C54_register`, `C54_step`, `C55_aes256_partial`, `C55_false`, `C55_first`, `C55_partial`, `C55_records`, `C55_unsupported`, `C56_aes128`, `C56_session`, `C57_exact`, `C57_standard`, `C57_tag`, `C57_unsupported`, `C58_distinct`, `C59_false`, `C59_partial`, `C60_false`, `C60_partial`, `C60_restores`, `C61_ecb`, `C61_false`, `C61_partial`, `C62_conforms`, `C63_roundtrip`, `C64_counter`, `C64_false`, `C64_partial`, `C64_repeats`, `C65_exact`, `C65_false`, `C65_false_sha1`, `C65_false_sha256_long`, `C65_false_sha384`, `C65_partial`, `C66_false`, `C66_partial`, `C66_prefix`, `C66_standard`, `C67_encoding`, `C67_expand_label`, `C67_injective`, `C67_limits_needed`, `C68_finished`, `C68_handshake_secret`, `C68_key_iv`, `C68_master_secret`, `C68_separation`, `C68_traffic_secret`, `C69_injective`, `C69_read_inverts`, `C70_whole_partial`, `C71_early_partial`, `C71_exact`, `C71_false_1969`, `C71_false_2100`, `C71_late_partial`, `C71_partial`, `C72_false`, `C72_partial`, `C72_single_partial`, `C72_store`, `C73_defined`, `C73_false_repeated`, `C73_false_separator`, `C73_false_set`, `C73_false_string_type`, `C73_false_unknown`, `C73_partial`, `C73_unknown_partial`, `C74_any_partial`, `C74_false_header`, `C74_false_length`, `C74_false_range`, `C74_partial`, `C76_false`, `C76_partial`, `C76_passes`, `C76_terminates_partial`, `C77_false`, `C77_order_partial`, `C77_partial`, `C79_extensions_ignored`, `C79_false`, `C80_exponent_partial`, `C80_false_exponent`, `C80_false_serial`, `C80_false_uniqueID`, `C80_partial`, `C80_serial_partial`, `C80_uniqueID_partial`, `C81_partial`, `C82_exact_partial`, `C82_false`, `C82_partial`, `C83_false`, `C83_partial`, `C84_point_exists`, `C84_prime`, `C84_scalar_multiple`, `C85_random_key`, `C86_partial`, `C87_false`, `C87_false_sha384`, `C87_partial`, `C88_field`, `C88_standard`, `C89_forgery`, `C89_sharp`, `C90_detected`, `C90_two_bits`, `C90_undetected`, `C91_false`, `C91_honest`, `C91_key_independent`, `C91_partial`, `C92_base_order`, `C92_exact`, `C92_false`, `C92_partial`, `C92_unique`, `C93_false`, `C93_partial`, `C93_predict_partial`, `C93_run_partial`, `C94_false`, `C94_partial`, `C94_wrong`, `C95_false`, `C95_long_partial`, `C95_partial`, `C95_pem_partial`, `C96_key_pair`, `C97_false`, `C97_partial`, `C98_false`, `C98_partial`, `C99_false`, `C99_partial`
