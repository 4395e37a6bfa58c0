{"id": "C01", "title": "Hash streaming is independent of chunking", "statement": "For MD5, SHA1, SHA2<224/256/384/512>, SHA3<224/256/384/512> and CRC32: feeding a message through any sequence of add() calls, with any chunk boundaries (including empty chunks), yields the same digest as feeding the concatenation in a single add().", "quantifier": "every message and every way of cutting it into a finite list of chunks, for every hash class", "why_tests_cant": "There are exponentially many chunkings; buffer-carry bugs show only for particular residues of the lengths modulo the block size.", "anchors": ["src/md5.cpp:MD5::add", "src/sha1.cpp:SHA1::add", "src/sha2.cpp:SHA2<256>::add", "src/sha2.cpp:SHA2<512>::add", "src/sha3.cpp:SHA3::add", "src/crc.cpp:CRC32::add"]}
{"id": "C02", "title": "Reading a digest does not disturb the hash object", "statement": "In any interleaving of add() calls and digest reads on one hash object, every digest read returns exactly the digest of all bytes added before it; reading never changes later results (USAGE.md promises a hash may be read and then continued).", "quantifier": "every finite history of add and read operations, every hash class", "why_tests_cant": "Histories are unbounded; a test fixes one history.", "anchors": ["src/md5.cpp:operator std::array", "src/sha1.cpp:operator std::array", "src/sha2.cpp:operator std::array", "src/sha3.cpp:operator std::array", "src/crc.cpp:operator std::array", "USAGE.md"]}
{"id": "C03", "title": "Digests do not depend on uninitialised buffer contents", "statement": "The block buffers of MD5, SHA1 and SHA2 are not initialised by the constructors; the digest of any message is nevertheless the same for every initial content of that memory.", "quantifier": "every message, every chunking and every initial content of the internal block buffer", "why_tests_cant": "A test observes whatever bytes happen to be on the stack that day.", "anchors": ["include/caligo/md5.h:chunk", "include/caligo/sha1.h:chunk", "include/caligo/sha2.h:chunk"]}
{"id": "C04", "title": "MD5 conforms to RFC 1321", "statement": "For every message shorter than 2^61 bytes MD5(message).data() equals the RFC 1321 message digest.", "quantifier": "every byte string of length below 2^61", "why_tests_cant": "Known-answer tests cover a handful of messages; padding edge cases depend on the length modulo 64 and the compression function on all 2^512 blocks.", "anchors": ["src/md5.cpp:MD5::processChunk", "src/md5.cpp:operator std::array"]}
{"id": "C05", "title": "SHA-1 conforms to FIPS 180-4", "statement": "For every message shorter than 2^61 bytes SHA1(message).data() equals the FIPS 180-4 SHA-1 digest.", "quantifier": "every byte string of length below 2^61", "why_tests_cant": "Known-answer tests cover a handful of messages only.", "anchors": ["src/sha1.cpp:SHA1::processChunk", "src/sha1.cpp:operator std::array"]}
{"id": "C06", "title": "SHA-224/SHA-256 conform to FIPS 180-4", "statement": "For every message shorter than 2^61 bytes SHA2<256>(message).data() and SHA2<224>(message).data() equal the FIPS 180-4 SHA-256 and SHA-224 digests (SHA-224 being truncated to 28 bytes).", "quantifier": "every byte string of length below 2^61", "why_tests_cant": "Known-answer tests cover a handful of messages only.", "anchors": ["src/sha2.cpp:SHA2<256>::processChunk", "src/sha2.cpp:sha224_override", "include/caligo/sha2.h:SHA2<224>"]}
{"id": "C07", "title": "SHA-384/SHA-512 conform to FIPS 180-4", "statement": "For every message shorter than 2^61 bytes SHA2<512>(message).data() and SHA2<384>(message).data() equal the FIPS 180-4 SHA-512 and SHA-384 digests.", "quantifier": "every byte string of length below 2^61", "why_tests_cant": "Known-answer tests cover a handful of messages only; the two-block padding case depends on the length modulo 128.", "anchors": ["src/sha2.cpp:SHA2<512>::processChunk", "src/sha2.cpp:sha384_override", "include/caligo/sha2.h:SHA2<384>"]}
{"id": "C08", "title": "SHA-3 conforms to FIPS 202", "statement": "For every message shorter than 2^64 bytes SHA3<d>(message).data(), d in {224,256,384,512}, equals the FIPS 202 SHA3-d digest (Keccak-f[1600] sponge with rate 1600-2d, suffix 01 and pad10*1).", "quantifier": "every byte string of length below 2^64, all four digest sizes", "why_tests_cant": "The permutation is over 2^1600 states and padding depends on the length modulo the rate; vectors sample points.", "anchors": ["src/sha3.cpp:SHA3::processChunk", "src/sha3.cpp:SHA3::add", "src/sha3.cpp:operator std::array"]}
{"id": "C09", "title": "Hash(name) selects the named algorithm or throws", "statement": "Hash(name) computes the algorithm that the name denotes (md5, sha/sha1, sha224.., sha2-224.., sha3-224/256/384/512) and throws std::runtime_error for every other name.", "quantifier": "every string used as hash name, and every message", "why_tests_cant": "Names are unbounded strings; only a few are ever tried, and a fallthrough default is invisible to positive tests.", "anchors": ["src/hash.cpp:Hash::Impl::Impl"]}
{"id": "C10", "title": "Hex string conversion of a digest renders exactly the digest", "statement": "Converting a hash object to std::string yields 2*hashsize lower-case hexadecimal characters that decode to exactly data().", "quantifier": "every hash class and every message", "why_tests_cant": "The property concerns every digest value and every class, including the truncated variants which inherit the conversion.", "anchors": ["src/sha2.cpp:operator std::string", "include/caligo/sha2.h:using SHA2<256>::operator std::string", "src/md5.cpp:operator std::string", "src/sha3.cpp:operator std::string"]}
{"id": "C11", "title": "DigestInfo prefixes are well-formed DER for the hash", "statement": "getAsn1Id() followed by a digest of hashsize bytes is the DER encoding of SEQUENCE { SEQUENCE { OID of that hash, NULL }, OCTET STRING digest }: every length octet matches the content.", "quantifier": "every hash class and every digest value", "why_tests_cant": "No test parses the prefix together with a digest; wrong inner lengths only matter to a strict peer.", "anchors": ["include/caligo/md5.h:getAsn1Id", "include/caligo/sha1.h:getAsn1Id", "include/caligo/sha2.h:getAsn1Id", "include/caligo/sha3.h:getAsn1Id"]}
{"id": "C12", "title": "CRC32 equals the bitwise polynomial definition", "statement": "CRC32(data).data() is the big-endian CRC-32/ISO-HDLC of data: reflected polynomial 0xEDB88320, initial value and final xor 0xFFFFFFFF, computed bit by bit.", "quantifier": "every byte string", "why_tests_cant": "A wrong entry among the 256 table entries is hit only by particular data.", "anchors": ["src/crc.cpp:crcTable", "src/crc.cpp:CRC32::add", "src/crc.cpp:operator std::array"]}
{"id": "C13", "title": "CRC32 detects every burst error of up to 32 bits", "statement": "If two messages of equal length differ only within a window of at most 32 consecutive bits (in transmission order: least significant bit of each byte first) then their CRC32 values differ.", "quantifier": "every message, every position, every non-zero error pattern of span at most 32 bits", "why_tests_cant": "The number of (message, position, pattern) triples is astronomically large.", "anchors": ["src/crc.cpp:CRC32::add"]}
{"id": "C14", "title": "Base64 decoding inverts encoding", "statement": "base64d(base64(data, withNewlines, omitEqs, charSet)) == data.", "quantifier": "every byte string, both newline settings, both padding settings, all three character sets", "why_tests_cant": "Data is unbounded; tail and line-break handling depends on length modulo 3 and modulo 57.", "anchors": ["src/base64.cpp:base64", "src/base64.cpp:base64d"]}
{"id": "C15", "title": "Base64 encoding is RFC 4648 with 76-column lines", "statement": "Without newlines the output is the RFC 4648 encoding of data in the selected alphabet (with or without '=' padding); with newlines the output is the same text with a line feed after every 76 characters produced by full blocks plus one final line feed, so no line is longer than 76 characters.", "quantifier": "every byte string and option combination", "why_tests_cant": "Unbounded data; line accounting goes wrong only at particular lengths.", "anchors": ["src/base64.cpp:base64", "src/base64.cpp:getLookupFor"]}
{"id": "C16", "title": "Base64 decoding ignores foreign characters and never fails", "statement": "base64d is total; inserting or deleting any characters outside the accepted alphabets ('A'-'Z','a'-'z','0'-'9','+','-','/','_',',') anywhere in the text never changes the result, and the result has floor(6k/8) bytes where k is the number of accepted characters.", "quantifier": "every byte string given as text", "why_tests_cant": "Every position and every interleaving of junk matter.", "anchors": ["src/base64.cpp:valueOf", "src/base64.cpp:base64d"]}
{"id": "C17", "title": "bignum addition and subtraction are exact", "statement": "a + b returns (carry, sum) with sum + carry*2^W = a + b, and a - b returns (borrow, diff) with diff + b = a + borrow*2^W and borrow set exactly if a < b, where W = 32*ceil(Bits/32).", "quantifier": "every width Bits and all operand values", "why_tests_cant": "2^(2W) operand pairs for unboundedly many widths; carries crossing particular words are rare in samples.", "anchors": ["include/caligo/bignum.h:add", "include/caligo/bignum.h:sub", "include/caligo/bignum.h:operator+", "include/caligo/bignum.h:operator-"]}
{"id": "C18", "title": "bignum multiplication is exact", "statement": "a * b (bignum by bignum), square(), and a * uint32 return the exact integer product with no lost carry and no out-of-bounds access, for every width that is a multiple of 32.", "quantifier": "every width that is a positive multiple of 32 and all operand values", "why_tests_cant": "Carry propagation failures occur for a vanishing share of operands.", "anchors": ["include/caligo/bignum.h:operator*", "include/caligo/bignum.h:square"]}
{"id": "C19", "title": "bignum comparison is numeric comparison", "statement": "a == b holds exactly when the numbers are equal and a < b exactly when a is numerically smaller.", "quantifier": "every width and all operand values", "why_tests_cant": "Operand space is unbounded.", "anchors": ["include/caligo/bignum.h:operator==", "include/caligo/bignum.h:operator<"]}
{"id": "C20", "title": "bignum byte conversion is little-endian and lossless up to the width", "statement": "bignum(bytes).as_bytes() is bytes zero-padded to 4*N bytes whenever bytes fit; the constructed number is the little-endian value of the first 4*N bytes, so over-long inputs are reduced modulo 2^(32N); as_bytes followed by the constructor is the identity.", "quantifier": "every width and every byte string of every length", "why_tests_cant": "Byte strings of every length relative to the width have to be considered.", "anchors": ["include/caligo/bignum.h:bignum(std::span<const uint8_t>)", "include/caligo/bignum.h:as_bytes"]}
{"id": "C21", "title": "bignum shifts, slices, bit and swap operations have their arithmetic meaning", "statement": "shr1 halves, shl_word(k) multiplies by 2^(32k) modulo 2^W, slice<K>(s) is floor(a/2^s) mod 2^K for word-aligned s in range, bit/set_bit/clear_bit read and write the binary digit, neg() gives 2^W-1-a, and ctime_swap exchanges its arguments exactly when asked.", "quantifier": "every width, all values, every in-range index", "why_tests_cant": "Unbounded widths and values.", "anchors": ["include/caligo/bignum.h:shr1", "include/caligo/bignum.h:shl_word", "include/caligo/bignum.h:slice", "include/caligo/bignum.h:set_bit", "include/caligo/bignum.h:clear_bit", "include/caligo/bignum.h:ctime_swap", "include/caligo/bignum.h:neg"]}
{"id": "C22", "title": "bignum width conversion preserves the value when it fits", "statement": "Constructing bignum<B> from bignum<K> preserves the number whenever it is representable in the target.", "quantifier": "every pair of widths and every value", "why_tests_cant": "Pairs of widths are unbounded; tests use only multiples of 32.", "anchors": ["include/caligo/bignum.h:bignum(const bignum<K>&)"]}
{"id": "C23", "title": "naive_reduce computes the remainder", "statement": "x.naive_reduce(p) returns x mod p for every x and every non-zero p.", "quantifier": "every width pair, every dividend and every non-zero divisor", "why_tests_cant": "The claim depends on the size relation between dividend and divisor, which samples from the Montgomery set-up never vary.", "anchors": ["include/caligo/bignum.h:naive_reduce"]}
{"id": "C24", "title": "Modular inverse modulo a power of two", "statement": "For odd A, RecursiveInverseModPower2(A) * A is congruent to 1 modulo 2^N.", "quantifier": "every width that is a multiple of 32 (and the recursion over widths) and every odd A", "why_tests_cant": "Requires induction over the recursion on the width and over all odd numbers.", "anchors": ["include/caligo/mont.h:RecursiveInverseModPower2"]}
{"id": "C25", "title": "Montgomery reduction is correct", "statement": "For an odd modulus n, REDC(v) * 2^K is congruent to v modulo n and the result is less than 2^K; for v < n * 2^K the result represents v * 2^-K mod n.", "quantifier": "every width that is a whole number of 32-bit words, every odd modulus and 2K-bit value", "why_tests_cant": "The final conditional subtraction fires on a sparse set of inputs.", "anchors": ["include/caligo/mont.h:MontgomeryState", "include/caligo/mont.h:REDC"]}
{"id": "C26", "title": "Montgomery conversion round-trips", "statement": "Converting x into Montgomery form and back gives x mod n; in particular it gives x itself for 0 <= x < n.", "quantifier": "every width that is a whole number of 32-bit words, every odd modulus n > 1 and value x", "why_tests_cant": "Boundary behaviour at multiples of n and near 2^K is not reachable by sampling.", "anchors": ["include/caligo/mont.h:MontgomeryValue", "include/caligo/mont.h:operator bignum<K>"]}
{"id": "C27", "title": "Montgomery multiplication and exponentiation compute in Z/n", "statement": "For Montgomery values a, b over an odd modulus n: (a*b), a.square() and a.exp(e) convert back to a number congruent to a*b, a^2 and a^e modulo n, for every K-bit exponent e.", "quantifier": "every width that is a whole number of 32-bit words, every odd modulus, operands and exponent", "why_tests_cant": "Square-and-multiply runs K steps on intermediate values that are not fully reduced; only an invariant covers all of them.", "anchors": ["include/caligo/mont.h:operator*", "include/caligo/mont.h:square", "include/caligo/mont.h:exp"]}
{"id": "C28", "title": "Montgomery addition computes in Z/n", "statement": "For Montgomery values a, b over an odd modulus n, (a+b) converts back to a number congruent to a + b modulo n.", "quantifier": "every width that is a whole number of 32-bit words, every odd modulus and operands", "why_tests_cant": "The discarded carry matters only when the representatives sum past 2^K.", "anchors": ["include/caligo/mont.h:operator+"]}
{"id": "C29", "title": "Montgomery exponentiation by a 32-bit exponent uses the exponent", "statement": "MontgomeryValue::exp(uint32_t e) converts back to a number congruent to a^e modulo n.", "quantifier": "every width that is a whole number of 32-bit words, every modulus, base and 32-bit exponent", "why_tests_cant": "Only e = 65537 is ever exercised.", "anchors": ["include/caligo/mont.h:exp(uint32_t)"]}
{"id": "C30", "title": "RSA public operation computes m^e mod n", "statement": "rsa_public_key(n,e).rsaep(m) is congruent to m^e modulo n and is the canonical residue when it is non-zero; the special path for e = 65537 gives the same result as the general path.", "quantifier": "every width that is a whole number of 32-bit words, every odd modulus n > 1, exponent e and message representative m", "why_tests_cant": "2^4096 inputs.", "anchors": ["include/caligo/rsa.h:rsaep"]}
{"id": "C31", "title": "RSA decryption inverts RSA encryption", "statement": "If n = p*q for distinct odd primes and e*d is congruent to 1 modulo lcm(p-1,q-1), then rsadp(rsaep(m)) = m and rsaep(rsadp(m)) = m for every 0 < m < n, including m not coprime to n.", "quantifier": "every width that is a whole number of 32-bit words, every RSA key pair with two distinct odd primes and every m < n", "why_tests_cant": "Key and message space are astronomically large; messages sharing a factor with n never occur in tests.", "anchors": ["include/caligo/rsa.h:rsaep", "include/caligo/rsa.h:rsadp"]}
{"id": "C32", "title": "MGF1 conforms to RFC 8017", "statement": "MGF1<Hash>::MGF(seed, len) equals RFC 8017 B.2.1 MGF1 (concatenation of Hash(seed || I2OSP(counter,4)) truncated to len bytes) for every len <= 2^32, and returns exactly len bytes.", "quantifier": "every seed and every length up to 2^32", "why_tests_cant": "The four-byte counter carry happens every 256, 65536, ... blocks.", "anchors": ["include/caligo/rsa.h:MGF1::MGF"]}
{"id": "C33", "title": "PKCS#1 v1.5 encoding conforms to RFC 8017", "statement": "PKCS1<Hash>(data, k) is EMSA-PKCS1-v1_5-ENCODE of the DER SEQUENCE with content data: 00 01 FF..FF 00 DigestInfo, exactly k bytes, for every k >= tLen + 11; for too small k the call reports an error instead of looping.", "quantifier": "every content shorter than 2^24 bytes, every requested size", "why_tests_cant": "The unsigned size subtraction wraps for short requests; sizes are unbounded.", "anchors": ["include/caligo/pkcs1.h:PKCS1"]}
{"id": "C34", "title": "PKCS#1 v1.5 signature verification accepts exactly the valid signatures", "statement": "For a signature of the modulus length, validatePkcs1_5Signature accepts exactly when sig < n and sig^e mod n equals the PKCS#1 encoding of the signed data (RFC 8017 RSASSA-PKCS1-v1_5-VERIFY); at most one signature below n is accepted.", "quantifier": "every key, every signed data and every signature string", "why_tests_cant": "Rejecting all forgeries is a universal statement over 2^4096 strings.", "anchors": ["include/caligo/rsa.h:validatePkcs1_5Signature"]}
{"id": "C35", "title": "PKCS#1 v1.5 signatures produced by the library verify", "statement": "For a valid key pair, the output of signPkcs1_5Signature<Hash>(data) has the modulus length and is accepted by validatePkcs1_5Signature<Hash>(data, .).", "quantifier": "every key pair and every data", "why_tests_cant": "Leading-byte-dependent behaviour occurs for a fraction of messages per key.", "anchors": ["include/caligo/rsa.h:signPkcs1_5Signature", "include/caligo/rsa.h:validatePkcs1_5Signature"]}
{"id": "C36", "title": "RSASSA-PSS signatures produced by the library verify", "statement": "For a valid key pair whose modulus has 8k bits with k >= 2 hLen + 2, validatePssSignature accepts signPssSignature(Hash(message), salt) for every message and every salt of hash length.", "quantifier": "every width that is a whole number of 32-bit words, every key pair with byte-multiple modulus size and every message and salt", "why_tests_cant": "Depends on the hash, mask and salt values; top-bit masking matters for half of all inputs.", "anchors": ["include/caligo/rsa.h:signPssSignature", "include/caligo/rsa.h:validatePssSignature", "include/caligo/rsa.h:generatePssData", "include/caligo/rsa.h:getSalt"]}
{"id": "C37", "title": "RSASSA-PSS verification applies EMSA-PSS-VERIFY to s^e mod n", "statement": "For a modulus of 8k bits with k >= 2 hLen + 2 and a signature s of k bytes, validatePssSignature accepts exactly when EMSA-PSS-VERIFY of RFC 8017 (sLen = hLen) accepts the encoded message s^e mod n.", "quantifier": "every width that is a whole number of 32-bit words, every key with byte-multiple modulus size, every message and signature", "why_tests_cant": "Universal over all forged encodings (non-zero padding, wrong trailer, wrong separator byte).", "anchors": ["include/caligo/rsa.h:validatePssSignature"]}
{"id": "C38", "title": "PrivateKey::sign and PublicKey::validateSignature agree for every TLS scheme", "statement": "For each rsa_pss_* scheme and a valid key pair, PublicKey::validateSignature(scheme, m, PrivateKey::sign(scheme, m)) is true; for schemes that are not supported sign returns an empty signature and validate returns false.", "quantifier": "every scheme value, key pair, message and random state", "why_tests_cant": "Three hash sizes times all messages; only one scheme is exercised.", "anchors": ["src/X509Certificate.cpp:RsaPrivateKey::sign", "src/X509Certificate.cpp:RsaPubkey::validateSignature"]}
{"id": "C39", "title": "Primality test is exact below 7920", "statement": "miller_rabin_is_probably_prime(n) is true exactly for the primes n < 7920.", "quantifier": "every n below 7920 at every bignum width", "why_tests_cant": "The table has 1000 entries and the width is a template parameter.", "anchors": ["include/caligo/random_prime.h:miller_rabin_is_probably_prime"]}
{"id": "C40", "title": "Primality test never rejects a prime", "statement": "miller_rabin_is_probably_prime(p) is true for every prime p.", "quantifier": "every width that is a whole number of 32-bit words, every prime", "why_tests_cant": "Infinitely many primes; needs the Miller-Rabin theorem plus correctness of the Montgomery arithmetic.", "anchors": ["include/caligo/random_prime.h:miller_rabin_is_probably_prime", "include/caligo/random_prime.h:miller_rabin_one_loop"]}
{"id": "C41", "title": "Accepted numbers are strong probable primes with no small factor", "statement": "Every n >= 7920 accepted by miller_rabin_is_probably_prime is odd, is a strong probable prime to each of the 1000 smallest prime bases, and has no prime factor below 7920.", "quantifier": "every width that is a whole number of 32-bit words, every number", "why_tests_cant": "Universal over all composite numbers.", "anchors": ["include/caligo/random_prime.h:miller_rabin_is_probably_prime"]}
{"id": "C42", "title": "random_prime returns an odd, full-length probable prime", "statement": "Whenever random_prime<N, strict_fips>() returns, the result is odd, has exactly N bits (bits N-1 and, with strict_fips, N-2 set, so that the product of two strict results has exactly 2N bits) and is accepted by the primality test.", "quantifier": "every width that is a whole number of 32-bit words, every state of the random source and both values of strict_fips", "why_tests_cant": "Quantifies over the generator state and the unbounded number of retries.", "anchors": ["include/caligo/random_prime.h:random_prime"]}
{"id": "C43", "title": "generate_random fills every element with one common byte stream", "statement": "generate_random writes every element of the target span, and the uint8_t, uint16_t, uint32_t and uint64_t overloads produce the same little-endian byte stream from the same generator state.", "quantifier": "every span length, every generator state, all four element widths", "why_tests_cant": "Tail handling depends on the length modulo 8, 4 and 2.", "anchors": ["include/caligo/random.h:generate_random"]}
{"id": "C44", "title": "The random generator has full period", "statement": "Starting anywhere, the generator state does not recur before 2^63 calls of generate_random_value and does recur after exactly 2^63 calls.", "quantifier": "every generator state and every number of calls", "why_tests_cant": "2^63 steps cannot be executed.", "anchors": ["include/caligo/random.h:generate_random_value"]}
{"id": "C45", "title": "Fresh processes generate different secrets", "statement": "Random values, private keys and PSS salts generated by two fresh processes are not the same predetermined constants.", "quantifier": "every process start", "why_tests_cant": "A test sees one process; that every process yields the same constant is a statement about all of them.", "anchors": ["include/caligo/random.h:generate_random_value", "include/caligo/x25519.h:random_private_key"]}
{"id": "C46", "title": "X25519 field arithmetic is exact modulo 2^255-19", "statement": "For ec_value operands with any 256-bit representation, +, -, * (by value and by uint32) and square() give a representation congruent to the exact result modulo 2^255-19.", "quantifier": "all 2^512 operand pairs", "why_tests_cant": "Folding of second carries happens for a 2^-200 fraction of inputs.", "anchors": ["include/caligo/x25519.h:operator+", "include/caligo/x25519.h:operator-", "include/caligo/x25519.h:operator*", "include/caligo/x25519.h:square"]}
{"id": "C47", "title": "X25519 field values compare modulo the prime", "statement": "ec_value ==, != and < compare the canonical residues modulo 2^255-19: a == b exactly when congruent, a != b exactly when not congruent; applyModulus yields the canonical residue.", "quantifier": "all 256-bit representations", "why_tests_cant": "Non-canonical representations are never tried.", "anchors": ["include/caligo/x25519.h:operator==", "include/caligo/x25519.h:operator!=", "include/caligo/x25519.h:applyModulus"]}
{"id": "C48", "title": "X25519 field inversion", "statement": "inverse(z) * z is congruent to 1 modulo 2^255-19 for every z not divisible by the prime, and inverse(z) is congruent to 0 otherwise.", "quantifier": "all 256-bit representations", "why_tests_cant": "Needs Fermat's little theorem and the primality of 2^255-19, not sampling.", "anchors": ["include/caligo/x25519.h:inverse"]}
{"id": "C49", "title": "X25519 conforms to RFC 7748", "statement": "X25519(k, u) equals the RFC 7748 function on the little-endian encodings of k and u for all 32-byte k and u (including the masking of the most significant bit of u and non-canonical u).", "quantifier": "all 2^512 pairs (k,u)", "why_tests_cant": "RFC vectors are two points plus iterations.", "anchors": ["include/caligo/x25519.h:X25519", "include/caligo/x25519.h:normalize"]}
{"id": "C50", "title": "X25519 key agreement", "statement": "X25519(a, X25519(b, 9)) = X25519(b, X25519(a, 9)) for all private keys a and b, and more generally for every common u-coordinate.", "quantifier": "every pair of private keys and every u", "why_tests_cant": "A universal statement over 2^512 key pairs that rests on the group law of the curve.", "anchors": ["include/caligo/x25519.h:X25519"]}
{"id": "C51", "title": "X25519 output is canonical and insensitive to clamped key bits", "statement": "X25519 always returns a value below 2^255-19; it depends on k only through bits 3..253 and on u only modulo 2^255-19; u congruent to 0 always yields 0.", "quantifier": "all k and u", "why_tests_cant": "Universal over representations.", "anchors": ["include/caligo/x25519.h:X25519", "include/caligo/x25519.h:normalize", "include/caligo/x25519.h:applyModulus"]}
{"id": "C52", "title": "AES conforms to FIPS 197", "statement": "AES<128> and AES<256>: Encrypt(schedule(key), block) equals the FIPS 197 cipher for every key of the proper size and every block.", "quantifier": "every key and block", "why_tests_cant": "2^256 x 2^128 inputs.", "anchors": ["src/aes.cpp:AesKeySchedule", "src/aes.cpp:nextRoundKey", "include/caligo/aes.h:AesEncrypt"]}
{"id": "C53", "title": "AES encryption is a permutation", "statement": "For a fixed key, distinct blocks have distinct AES encryptions, and every block is the encryption of some block.", "quantifier": "every key and pair of blocks", "why_tests_cant": "Injectivity over 2^128 blocks.", "anchors": ["include/caligo/aes.h:AesEncrypt"]}
{"id": "C54", "title": "GHASH multiplication is multiplication in GF(2^128)", "statement": "reflect(galoisMultiply(reflect(a), reflect(b))) equals the block multiplication of NIST SP 800-38D for all 128-bit blocks.", "quantifier": "all 2^256 pairs of blocks", "why_tests_cant": "Pairs cannot be enumerated; reduction errors show on sparse operands.", "anchors": ["include/caligo/ghash.h:galoisMultiply", "include/caligo/ghash.h:reflect"]}
{"id": "C55", "title": "GCM encryption conforms to SP 800-38D", "statement": "For the n-th message of a GCM object with a 12-byte IV, Encrypt(plaintext, aad) returns the SP 800-38D GCM-AE ciphertext and 128-bit tag under the IV whose last 8 bytes are xored with n (the TLS 1.3 per-record nonce); for an 8-byte IV or an IV longer than 12 bytes the first message is GCM-AE under that IV. Every other IV length is also accepted by SP 800-38D and must be handled.", "quantifier": "every key, IV, message number, plaintext and associated data", "why_tests_cant": "Unbounded inputs of every length.", "anchors": ["include/caligo/gcm.h:GCM", "include/caligo/gcm.h:Encrypt", "include/caligo/gcm.h:ghash", "include/caligo/gcm.h:calculate_tag"]}
{"id": "C56", "title": "GCM decryption inverts encryption over whole sessions", "statement": "If two GCM objects are created from the same key and IV (12 bytes or another supported length), then for every sequence of messages encrypted by one and decrypted in order by the other, every decryption returns the plaintext and true.", "quantifier": "every key, IV and sequence of (plaintext, aad) messages", "why_tests_cant": "Sequences are unbounded; the counter is shared state.", "anchors": ["include/caligo/gcm.h:Encrypt", "include/caligo/gcm.h:Decrypt"]}
{"id": "C57", "title": "GCM decryption accepts exactly the recomputed tag", "statement": "Decrypt reports success exactly when the given tag equals the GCM tag of the given ciphertext and aad at that message number; in particular any change to only the tag is rejected, and unsupported IV lengths never succeed.", "quantifier": "every ciphertext, aad, tag and state", "why_tests_cant": "Universal over 2^128 tags.", "anchors": ["include/caligo/gcm.h:Decrypt"]}
{"id": "C58", "title": "GCM never reuses a counter block within a session", "statement": "With a 12-byte IV, the block-cipher input blocks used for all messages of a session (tag masks and keystream) are pairwise distinct, for fewer than 2^64 messages of fewer than 2^32-1 blocks each.", "quantifier": "every IV, every pair of message numbers and block indices", "why_tests_cant": "Quantifies over 2^96 counter values.", "anchors": ["include/caligo/gcm.h:Encrypt", "include/caligo/gcm.h:ctr_inc"]}
{"id": "C59", "title": "GCM does not release plaintext or lose synchronisation on a forged message", "statement": "When Decrypt reports failure it returns no plaintext, and a rejected forgery does not make later genuine messages undecryptable.", "quantifier": "every session and every forged message", "why_tests_cant": "Needs reasoning over histories with an attacker-chosen message in between.", "anchors": ["include/caligo/gcm.h:Decrypt"]}
{"id": "C60", "title": "CTR mode encrypts with the AES counter keystream", "statement": "CTR::Encrypt xors the data with the block-cipher counter keystream (so ciphertext differs from plaintext wherever the keystream is non-zero), and Decrypt of the corresponding message restores the data.", "quantifier": "every key, IV, message number and data", "why_tests_cant": "A round-trip test passes even when the keystream is all zero.", "anchors": ["include/caligo/ctr.h:GenerateKeystream", "include/caligo/ctr.h:Encrypt", "include/caligo/ctr.h:Decrypt"]}
{"id": "C61", "title": "CBC and ECB decryption invert encryption", "statement": "For any block cipher whose Decrypt inverts its Encrypt, ECB::Decrypt inverts ECB::Encrypt and CBC::Decrypt inverts CBC::Encrypt on every buffer whose size is a multiple of the block size.", "quantifier": "every such cipher, key, IV and buffer", "why_tests_cant": "Unbounded buffers and abstract ciphers; the headers are never instantiated by a test.", "anchors": ["include/caligo/legacy/cbc.h:CBC", "include/caligo/legacy/ecb.h:ECB"]}
{"id": "C62", "title": "ChaCha20 conforms to RFC 8439", "statement": "Encrypting any data, in any number of calls with any chunk sizes, xors it with the RFC 8439 keystream for the key and nonce starting at block counter 1 (counter modulo 2^32).", "quantifier": "every key, nonce, data and chunking", "why_tests_cant": "Unbounded chunkings; block boundaries at arbitrary offsets.", "anchors": ["include/caligo/chacha20.h:GenerateBlock", "include/caligo/chacha20.h:Encrypt"]}
{"id": "C63", "title": "ChaCha20 decryption inverts encryption under any chunking", "statement": "Two ChaCha20 objects with equal key and nonce: decrypting with one, in any chunking, what the other encrypted in any other chunking restores the data; the constructor throws exactly when the key is not 32 bytes or the nonce not 12 bytes.", "quantifier": "every key, nonce, data and pair of chunkings", "why_tests_cant": "Unbounded chunkings.", "anchors": ["include/caligo/chacha20.h:Encrypt", "include/caligo/chacha20.h:Decrypt", "include/caligo/chacha20.h:ChaCha20"]}
{"id": "C64", "title": "ChaCha20 does not reuse keystream blocks", "statement": "Within one ChaCha20 object no block counter value is used twice.", "quantifier": "every amount of data processed by one object", "why_tests_cant": "The repetition only starts after 2^38 bytes.", "anchors": ["include/caligo/chacha20.h:GenerateBlock"]}
{"id": "C65", "title": "HMAC conforms to RFC 2104", "statement": "HMAC<Hash>(text, key) equals RFC 2104 HMAC with that hash for every key length.", "quantifier": "every hash class, key and text", "why_tests_cant": "Keys longer than a block and hashes whose block is not twice the digest are not in the vectors.", "anchors": ["include/caligo/hkdf.h:HMAC"]}
{"id": "C66", "title": "HKDF-Expand conforms to RFC 5869", "statement": "HKDF_Expand(prk, info, len) equals RFC 5869 HKDF-Expand over the library's HMAC for len <= 255*hashsize, returns exactly len bytes, and shorter outputs are prefixes of longer ones; longer requests must be rejected.", "quantifier": "every prk, info and length", "why_tests_cant": "Lengths are unbounded and the one-byte counter wraps.", "anchors": ["include/caligo/hkdf.h:HKDF_Expand", "include/caligo/hkdf.h:HKDF_Extract"]}
{"id": "C67", "title": "HKDF-Expand-Label encodes HkdfLabel unambiguously", "statement": "HKDF_Expand_Label expands with the RFC 8446 HkdfLabel structure for len < 2^16, label of at most 249 bytes and context of at most 255 bytes, and distinct (len, label, context) triples within these limits are expanded with distinct info strings.", "quantifier": "every prk, label, context and length", "why_tests_cant": "Injectivity is a statement about all pairs.", "anchors": ["include/caligo/hkdf.h:HKDF_Expand_Label"]}
{"id": "C68", "title": "TLS 1.3 key schedule functions follow RFC 8446", "statement": "HKDF_HandshakeSecret, HKDF_MasterSecret, get_traffic_secret, get_key_iv and get_finished_key equal the RFC 8446 section 7.1/7.3 derivations over the library's HMAC, and the four traffic labels separate client/server and handshake/application secrets.", "quantifier": "every shared secret and transcript hash", "why_tests_cant": "One trace is tested.", "anchors": ["include/caligo/hkdf.h:secret", "include/caligo/hkdf.h:HKDF_HandshakeSecret", "include/caligo/hkdf.h:HKDF_MasterSecret"]}
{"id": "C69", "title": "DER reading inverts DER writing", "statement": "Reading elements from the concatenation of DER-encoded TLVs returns exactly these tags and contents in order, ends with empty() true, and never touches memory outside the buffer.", "quantifier": "every finite list of (tag, content) pairs", "why_tests_cant": "Lists and contents are unbounded; long-form lengths vary.", "anchors": ["include/caligo/Asn1.h:asn1_view"]}
{"id": "C70", "title": "DER reading never touches memory outside the buffer", "statement": "asn1_view::read on any byte string returns an element inside the buffer or signals an error; it never reads or designates memory outside it.", "quantifier": "every byte string and offset", "why_tests_cant": "Malformed inputs are unbounded; out-of-bounds reads may go unnoticed when run.", "anchors": ["include/caligo/Asn1.h:read", "include/caligo/Asn1.h:peek"]}
{"id": "C71", "title": "Certificate dates are converted to the correct Unix time", "statement": "For every UTCTime (years 1950-2049 per RFC 5280) and GeneralizedTime value denoting a valid calendar date and time, the parsed validity date is the corresponding Unix time in seconds.", "quantifier": "every valid date and time", "why_tests_cant": "Leap-year handling differs over centuries; tests use a few dates.", "anchors": ["src/X509Certificate.cpp:parseDer<x509date>"]}
{"id": "C72", "title": "Every certificate of a PEM bundle is returned", "statement": "parseCertificatesPem returns exactly the certificates of the bundle, in order.", "quantifier": "every bundle of PEM certificates", "why_tests_cant": "Bundles are unbounded; the system bundle used by the trust store is machine-dependent.", "anchors": ["src/X509Certificate.cpp:parseCertificatesPem", "src/X509Certificate.cpp:parseCertificate"]}
{"id": "C73", "title": "Distinguished names are compared faithfully", "statement": "Two certificates get equal subject (or issuer) strings only if their distinguished names have the same attributes.", "quantifier": "every pair of names", "why_tests_cant": "Collisions are found by reasoning about the encoding, not by sampling.", "anchors": ["include/caligo/X509Certificate.h:to_string", "src/X509Certificate.cpp:parseDer<x509name>"]}
{"id": "C74", "title": "Certificate verification checks nesting and signature", "statement": "cert.verify(issuer) returns true only if the validity interval of cert lies within that of issuer, the signature algorithm is RSA PKCS#1 with SHA-256/384/512, and the signature verifies under the issuer's key over the exact bytes of the to-be-signed certificate.", "quantifier": "every pair of certificates", "why_tests_cant": "Universal over all certificates, including adversarial ones.", "anchors": ["src/X509Certificate.cpp:x509certificate::verify"]}
{"id": "C75", "title": "Truststore::trust is sound", "statement": "If trust(certs, now) returns true then certs[0] is valid at time now and there is a chain certs[0], ..., root of certificates each verifying under the next with matching issuer/subject names, ending in a certificate of the store, every certificate of the chain being valid at time now.", "quantifier": "every trust store, certificate list and time", "why_tests_cant": "Universal over attacker-chosen certificate lists of any length.", "anchors": ["src/Truststore.cpp:trust"]}
{"id": "C76", "title": "Truststore::trust always terminates", "statement": "trust(certs, now) terminates for every store and every certificate list, although its loop restarts from index 0.", "quantifier": "every trust store and certificate list", "why_tests_cant": "Termination on all inputs needs a variant, not runs.", "anchors": ["src/Truststore.cpp:trust"]}
{"id": "C77", "title": "Truststore::trust is complete and independent of certificate order", "statement": "If the certificates after the leaf have pairwise distinct subjects and there is a verifying chain from certs[0] to the store, then trust returns true whatever the order of the intermediate certificates.", "quantifier": "every trust store, certificate list and permutation of the intermediates", "why_tests_cant": "Factorially many orders.", "anchors": ["src/Truststore.cpp:trust"]}
{"id": "C78", "title": "Truststore lookups reflect the history of additions", "statement": "get(name) returns the certificate most recently added with that subject, or nothing if none was added; trust never changes the store.", "quantifier": "every history of addCertificate and trust calls", "why_tests_cant": "Histories are unbounded.", "anchors": ["src/Truststore.cpp:get", "src/Truststore.cpp:addCertificate", "src/Truststore.cpp:trust"]}
{"id": "C79", "title": "Only certificate authorities can issue certificates", "statement": "trust(certs, now) returns true only if every issuing certificate of the chain is marked as a certificate authority by its basicConstraints extension.", "quantifier": "every trust store and certificate list", "why_tests_cant": "Universal over attacker-chosen certificates.", "anchors": ["src/X509Certificate.cpp:parseCertificate", "src/X509Certificate.cpp:verify", "src/Truststore.cpp:trust"]}
{"id": "C80", "title": "Parsed certificates carry the encoded fields", "statement": "parseCertificate applied to the DER encoding of a version-3 certificate with RSA key of at most 4096 bits and known name attributes returns exactly the encoded serial number, issuer, subject, validity, key and common name, and keeps the original bytes.", "quantifier": "every such certificate", "why_tests_cant": "Unbounded inputs; serial numbers of up to 20 octets are allowed by RFC 5280.", "anchors": ["src/X509Certificate.cpp:parseCertificate", "src/X509Certificate.cpp:parseBignumDer"]}
{"id": "C81", "title": "Montgomery arithmetic at widths that are not multiples of 32", "statement": "For every width K, odd modulus 1 < n < 2^K and x < n, converting x into Montgomery form over bignum<K> and back gives x.", "quantifier": "every width K, odd modulus and residue", "why_tests_cant": "Only widths 256, 512, 2048 and 4096 are instantiated by the tests.", "anchors": ["include/caligo/mont.h:MontgomeryState", "include/caligo/bignum.h:operator*", "include/caligo/bignum.h:slice"]}
{"id": "C82", "title": "PSS signatures that are too short for the hash are refused", "statement": "validatePssSignature returns false for every signature of fewer than 2 hLen + 2 bytes.", "quantifier": "every key, message and short signature", "why_tests_cant": "The length of a received signature is chosen by the peer; tests use signatures of the modulus length only.", "anchors": ["include/caligo/rsa.h:validatePssSignature", "include/caligo/rsa.h:getSalt"]}
{"id": "C83", "title": "PSS signatures are unique modulo the modulus range", "statement": "validatePssSignature refuses every signature whose number is not below the modulus (RFC 8017 section 8.1.2 step 2b).", "quantifier": "every key with byte-multiple modulus size, message and signature of modulus length", "why_tests_cant": "Needs a signature made from an accepted one by adding the modulus.", "anchors": ["include/caligo/rsa.h:validatePssSignature"]}
{"id": "C84", "title": "X25519 is scalar multiplication on curve25519", "statement": "X25519(k, u) is the u-coordinate of k' P for every point P with u-coordinate u of v^2 = u^3 + 486662 u^2 + u over any field containing the integers modulo 2^255-19, where k' is the clamped scalar (0 standing for the point at infinity); such a P exists for every u.", "quantifier": "every k, u, extension field and point", "why_tests_cant": "Rests on the group law of the curve and the correctness of the differential addition formulas including the exceptional cases.", "anchors": ["include/caligo/x25519.h:X25519"]}
{"id": "C85", "title": "Random X25519 private keys are clamped", "statement": "random_private_key returns a multiple of 8 in [2^254, 2^255) whose bits 3..253 are those of the random number drawn, and X25519 uses it unchanged (normalize is the identity on it).", "quantifier": "every state of the random source", "why_tests_cant": "A test sees a few of 2^251 keys.", "anchors": ["include/caligo/x25519.h:random_private_key", "include/caligo/x25519.h:normalize"]}
{"id": "C86", "title": "AES keys of the wrong size are refused", "statement": "Constructing AES<128>::KeySchedule from a key that is not 16 bytes long, or AES<256>::KeySchedule from a key that is not 32 bytes long, throws.", "quantifier": "every key length and every content of the uninitialised schedule", "why_tests_cant": "Depends on uninitialised or out-of-bounds memory; the tests use keys of the right size.", "anchors": ["src/aes.cpp:KeySchedule"]}
{"id": "C87", "title": "The TLS 1.3 key schedule is the standard one for both TLS hash functions", "statement": "For SHA-256 and SHA-384 (the hashes of the TLS 1.3 cipher suites) HKDF_HandshakeSecret, HKDF_MasterSecret, get_traffic_secret, get_key_iv and get_finished_key return the values of RFC 8446 over RFC 5869 over RFC 2104.", "quantifier": "every shared secret, secret of hash length, transcript hash and key length within the RFC limits", "why_tests_cant": "Only SHA-256 traces are tested; HMAC's block size is wrong for SHA-384.", "anchors": ["include/caligo/hkdf.h:HMAC", "include/caligo/hkdf.h:HKDF_HandshakeSecret", "include/caligo/hkdf.h:HKDF_MasterSecret", "include/caligo/hkdf.h:secret"]}
{"id": "C88", "title": "The blocks of GCM form a field", "statement": "128-bit registers with exclusive or and galoisMultiply satisfy the laws of a field: multiplication is commutative, associative and distributive, has the unit 1, has no divisors of zero and every non-zero register has an inverse.", "quantifier": "all registers", "why_tests_cant": "A statement about 2^384 triples of registers; the absence of divisors of zero rests on the irreducibility of x^128 + x^7 + x^2 + x + 1.", "anchors": ["include/caligo/ghash.h:galoisMultiply"]}
{"id": "C89", "title": "A forged GCM message is accepted for few hash subkeys only", "statement": "For two different messages (ciphertext, additional data) below the length limit of the standard, any two masks and any two tags, the number of hash subkeys for which calculate_tag gives the first tag for the first message and the second tag for the second is at most the number of blocks of the longer message plus one.", "quantifier": "every pair of messages, masks and tags, and all 2^128 subkeys", "why_tests_cant": "Counts over all 2^128 subkeys; it is the statement on which the security proof of GCM rests.", "anchors": ["include/caligo/gcm.h:calculate_tag", "include/caligo/gcm.h:ghash", "include/caligo/ghash.h:galoisMultiply"]}
{"id": "C90", "title": "CRC32 detects every double bit error", "statement": "Two messages that differ in exactly two bits have different CRC32 values unless the distance of the two bits is a multiple of 2^32 - 1; in particular every double bit error in a message of less than 2^29 bytes is detected.", "quantifier": "every message and every pair of bit positions", "why_tests_cant": "Covers messages of any length, up to hundreds of megabytes; it rests on the polynomial being primitive.", "anchors": ["src/crc.cpp:add"]}
{"id": "C91", "title": "The X25519 shared secret is never all zero", "statement": "Whatever 32 bytes a peer sends, X25519 with any private key does not return the all-zero shared secret.", "quantifier": "every private key and every received u-coordinate", "why_tests_cant": "The exceptions are five residues out of 2^255; that there are no others for any of the 2^251 scalars rests on the number of points of the curve and of its twist.", "anchors": ["include/caligo/x25519.h:X25519", "include/caligo/x25519.h:normalize"]}
{"id": "C92", "title": "Different X25519 private keys have different public keys", "statement": "Two private keys that differ after clamping give different public keys, and for a received u-coordinate that is not of low order different shared secrets.", "quantifier": "every pair of private keys and every u-coordinate", "why_tests_cant": "A statement about 2^502 pairs of scalars; collisions are a fraction of 2^-126 of the keys.", "anchors": ["include/caligo/x25519.h:X25519", "include/caligo/x25519.h:normalize"]}
{"id": "C93", "title": "Observed random bytes do not give away later ones", "statement": "Knowing sixteen consecutive bytes from generate_random (for instance a part of a PSS salt, which every verifier recovers from a signature) leaves at least some byte drawn later undetermined.", "quantifier": "every state of the generator", "why_tests_cant": "A prediction of unseen output is a statement about all 2^64 states; statistical tests of the stream do not find it.", "anchors": ["include/caligo/random.h:generate_random", "include/caligo/random.h:generate_random_value"]}
{"id": "C94", "title": "The primality test accepts primes only", "statement": "If miller_rabin_is_probably_prime returns true for a number, the number is prime.", "quantifier": "every width and every number", "why_tests_cant": "The exceptions are astronomically rare among random numbers but can be constructed, because the bases are fixed; a test of the function cannot find them.", "anchors": ["include/caligo/random_prime.h:miller_rabin_is_probably_prime"]}
{"id": "C95", "title": "Private key files are read completely", "statement": "For the DER encoding of an RSA private key (RFC 8017 A.1.2), alone or in PEM armour inside any text without hyphens, the key that parsePrivateKey returns has the encoded modulus and private exponent.", "quantifier": "every key, every position of white space in the base64 text, every surrounding text", "why_tests_cant": "The tests read one or two files; keys of other sizes and other line lengths need a proof over the encoder.", "anchors": ["src/X509Certificate.cpp:parsePrivateKey"]}
{"id": "C96", "title": "A key file and a certificate for the same key pair work together", "statement": "If a private key file holds (n, e, d) and a certificate holds (n, e), then every message signed by the parsed private key with RSASSA-PSS and SHA-256 is accepted by the public key of the parsed certificate; both files may be DER or PEM.", "quantifier": "every valid key pair of 1040 to 4096 bits with a length in whole bytes and e at least 17, every certificate with ordinary names and dates, every message and random state", "why_tests_cant": "Joins two parsers, the signer and the verifier over all keys; an integration test covers one pair.", "anchors": ["src/X509Certificate.cpp:parsePrivateKey", "src/X509Certificate.cpp:parseCertificate", "src/X509Certificate.cpp:sign", "src/X509Certificate.cpp:validateSignature"]}
{"id": "C97", "title": "PSS signatures are accepted by the library for moduli of every bit length", "statement": "For every RSA key pair whose modulus has any number of bits (not only multiples of eight), the signature that rsa_private_key::signPssSignature makes for a message hash and a salt of hash length is accepted by rsa_public_key::validatePssSignature under the matching public key.", "quantifier": "all word counts, valid key pairs, hash classes, messages, salts, modulus sizes with room for hash and salt in the whole bytes of the modulus", "why_tests_cant": "Test keys have 1024, 2048 or 4096 bits. The product of two primes of 512 bits can have 1023 bits; then actualN / 8 drops the top bits of the signature, which shows for most but not all messages.", "anchors": ["include/caligo/rsa.h:128-163", "include/caligo/rsa.h:112-125"]}
{"id": "C98", "title": "PSS verification follows RFC 8017 for moduli of every bit length", "statement": "For every odd modulus of any number of bits and every signature of ceil(bits/8) bytes that represents a number below the modulus, validatePssSignature returns the verdict of RSASSA-PSS-VERIFY of RFC 8017 8.1.2 with emBits = bits - 1 and a salt of hash length.", "quantifier": "all word counts, odd moduli, exponents, hash classes, messages and signatures long enough for hash and salt", "why_tests_cant": "The code clears exactly one bit of the data block, which is right only for moduli of a whole number of bytes; keys in tests are of that kind, and half of the good signatures for a modulus of 8k-1 bits would still pass.", "anchors": ["include/caligo/rsa.h:112-125", "include/caligo/rsa.h:67-82"]}
{"id": "C99", "title": "More trusted certificates do not make a trusted certificate untrusted", "statement": "If Truststore::trust accepts a list of certificates, it still accepts the list after Truststore::addCertificate has added a certificate under a name that was not in the store.", "quantifier": "all stores built by additions, all lists, all added certificates and times", "why_tests_cant": "The loop skips certificates whose subject is already known; whether that hides the leaf depends on the names of all certificates in the store and the list, of which tests try a few.", "anchors": ["src/Truststore.cpp:30-32", "src/Truststore.cpp:44-76"]}
{"id": "C100", "title": "A certificate applies to the host names of its subjectAltName extension", "statement": "For a parsed certificate with host names (without wildcards) in a subjectAltName extension, x509certificate::appliesTo is true for these names, up to the case of letters, and for no other name (RFC 5280 4.2.1.6, RFC 6125 6.4).", "quantifier": "all certificates with plain names and correct dates, all lists of host names, all queried names", "why_tests_cant": "Test certificates usually repeat the host name as common name; then the difference cannot be seen. Wrong acceptance needs a name that no test thinks of.", "anchors": ["include/caligo/X509Certificate.h:163-165", "src/X509Certificate.cpp:307"]}
{"id": "C101", "title": "Printing a bignum stays inside its buffer and loses nothing", "statement": "For every bignum of at least one word, to_string writes only inside its buffer of 10*N characters, whatever the buffer held before, returns 9*N-1 characters, and these, read as a hexadecimal number with the spaces ignored, give the number.", "quantifier": "all word counts from 1 to 2^59, all numbers, all uninitialised buffer contents", "why_tests_cant": "The writes are sprintf at strlen of a growing buffer; whether they fit depends on the number of words, and leftovers in the buffer matter only if a terminator is lost.", "anchors": ["include/caligo/bignum.h:232-240"]}
{"id": "C102", "title": "The sizes that hash objects report are true", "statement": "For every hash class and every object state the digest has hashsize bytes, the size in the standard; and for every message of at most MaxLength() bytes, added in any pieces, the digest is the standard one.", "quantifier": "all eleven hash classes, all states, all messages up to MaxLength()", "why_tests_cant": "MaxLength is 2^61-1 bytes; no test hashes a message of that size, and the length counter is only exercised there.", "anchors": ["src/hash.cpp:35-52", "include/caligo/sha2.h:16-36", "include/caligo/sha3.h:13-31", "include/caligo/md5.h:12-29", "include/caligo/sha1.h:12-32", "include/caligo/crc.h:12-29"]}
{"id": "C103", "title": "A signature does not give away private keys that are made later", "statement": "No function of the public key and a PSS signature made by PrivateKey::sign yields the X25519 private key that the process draws next.", "quantifier": "all key pairs, messages, schemes, generator states and observers", "why_tests_cant": "Every test of signatures and of key generation passes; the connection goes through the salt inside the signature, the truncated linear generator and the next draw.", "anchors": ["src/X509Certificate.cpp:73-100", "include/caligo/rsa.h:55-65", "include/caligo/random.h:12-41", "include/caligo/x25519.h:114-118"]}
{"id": "C104", "title": "Certificate dates are ordered as the calendar is", "statement": "For two valid dates, encoded as UTCTime or GeneralizedTime, the parsed times compare as the dates do, and are equal only for equal dates.", "quantifier": "all pairs of valid dates and all four combinations of formats", "why_tests_cant": "Validity and nesting checks only compare dates; the number of pairs of dates is beyond enumeration, and the conversion itself is wrong for some of them.", "anchors": ["src/X509Certificate.cpp:73-134", "src/X509Certificate.cpp:358-363", "src/Truststore.cpp:44-76"]}
{"id": "C105", "title": "A certificate whose issuer has no RSA key is refused", "statement": "When the issuing certificate holds a public key that is not an RSA key (for example a P-256 key), verify returns false, and trust returns a verdict; no null pointer is dereferenced, whatever the presented certificate contains.", "quantifier": "all certificates, all issuers with a key of another kind, all trust stores and all times", "why_tests_cant": "The tests use RSA issuers only. The parser leaves the key pointer null for every other algorithm and verify dereferences it without a check; that this happens for every presented certificate with the right names and dates, whatever its signature, needs a proof over all certificates.", "anchors": ["src/X509Certificate.cpp:234-249 parseDer<std::unique_ptr<PublicKey>>", "src/X509Certificate.cpp:358-399 x509certificate::verify", "src/Truststore.cpp:44-76 Truststore::trust"]}
{"id": "C106", "title": "The two signature algorithm fields of an accepted certificate agree", "statement": "If verify accepts a certificate, the AlgorithmIdentifier inside the signed part equals the one next to the signature, as RFC 5280 4.1.1.2 requires; otherwise the algorithm used for verification is not covered by the signature.", "quantifier": "all certificates, all issuers", "why_tests_cant": "No test contains a certificate with different algorithms in the two places; that the inner field has no influence on anything is a statement about all certificates.", "anchors": ["src/X509Certificate.cpp:284-286 parseCertificate (algorithm ID, skipped)", "src/X509Certificate.cpp:358-399 x509certificate::verify"]}
{"id": "C107", "title": "Private keys are drawn from a space of at least 2^128 values", "statement": "The X25519 private keys that random_private_key can return, in any process and after any number of earlier draws, number at least 2^128, so that they cannot be enumerated; the same for the primes of random_prime.", "quantifier": "all histories of the generator, all prime sizes", "why_tests_cant": "Counting the values a generator can produce over all histories is not possible by running it; it needs the full period theorem and the fact that a key determines the state it was drawn from.", "anchors": ["include/caligo/random.h:12-35 generate_random_value", "include/caligo/x25519.h:114-118 random_private_key", "include/caligo/random_prime.h:106-115 random_prime"]}
{"id": "C108", "title": "From the bytes of certificates to the verdict: trust means a chain of RSA signatures", "statement": "For well-formed version 3 certificates with RSA keys and plain names, given as DER bytes and read by parseCertificate: if trust returns true, the first presented certificate begins a chain of presented certificates up to a trusted one, in which each issuer name equals the subject name of the next, validity intervals are nested and contain the given time, and each signature is, to the power of the next certificate's exponent, the PKCS #1 v1.5 encoding of the signed bytes. Conversely such a chain (with distinct names, none of them in the store, and signatures as long as the moduli) is trusted, whatever else is presented and in whatever order.", "quantifier": "all lists of trusted and of presented certificates of this kind, all names, keys, signatures, extensions, lengths and times", "why_tests_cant": "It composes the DER reader, the name and date conversion, bignum and Montgomery arithmetic, hashing, PKCS #1 and the trust loop; tests check a few fixed chains.", "anchors": ["src/X509Certificate.cpp:251-399 parseCertificate, verify", "src/Truststore.cpp:44-76 Truststore::trust", "include/caligo/rsa.h validatePkcs1"]}
{"id": "C109", "title": "Asking the trust store again gives the same answer", "statement": "Truststore::trust overwrites refused certificates of the caller's list with empty ones. If the call returns b and leaves the list l', then a second call with l' (same store, same time) returns b again and leaves l' unchanged. A certificate with a known issuer that does not verify is replaced by an empty certificate.", "quantifier": "all stores built by addCertificate, all lists of certificates, all times, both answers", "why_tests_cant": "The second run takes a different path: it does not restart at the places where the first run discarded a certificate; equality of the answers needs an invariant that relates the two runs for lists of any length.", "anchors": ["src/Truststore.cpp:44-76"]}
{"id": "C110", "title": "CRC32: four bytes anywhere fix the checksum, in exactly one way", "statement": "For every beginning, every end and every checksum value there is exactly one choice of four bytes between them that gives the message this checksum. Hence checksums are evenly distributed over messages that differ in four bytes, and for every message and every other beginning there is a message of the same length with the same checksum: CRC32 does not show deliberate changes.", "quantifier": "all prefixes, suffixes and 4-byte checksums", "why_tests_cant": "2^32 choices per context and infinitely many contexts; tests can neither show existence for each value nor uniqueness.", "anchors": ["src/crc.cpp:45-62"]}
{"id": "C111", "title": "Hashing can be continued from a digest", "statement": "For MD5, SHA-1, SHA-256 and SHA-512 the digest and the length of a message determine the digest of the message followed by its padding and any suffix, by setting up an object of the library's class with the digest as its state. So Hash(key + data) is not a message authentication code. For SHA-224 and SHA-384 truncation is meant to prevent this, but the string conversion of the library shows the untruncated state and allows it as well.", "quantifier": "all six block hash classes, all messages below 2^61 bytes, all suffixes", "why_tests_cant": "Statement about all messages, including unknown ones, and all suffixes.", "anchors": ["src/md5.cpp:39-83", "src/sha1.cpp:14-58", "src/sha2.cpp:17-118", "src/sha2.cpp:131-250", "include/caligo/sha2.h:44-75", "include/caligo/sha2.h:107-138"]}
{"id": "C112", "title": "The permutation of SHA-3 loses nothing", "statement": "processChunk of the SHA-3 class is a bijection on states of 25 lanes of 64 bits: every state is the image of exactly one. Consequently two SHA-3 objects that differ (in the lanes or in the length) still differ after the same bytes have been added to both, and, from any object, two different byte strings of the same length that fit in the rest of the current block leave different objects behind, including when they fill the block and the permutation runs.", "quantifier": "all 2^1600 states; all digest sizes; all objects and all added byte strings (for the third part: of equal length and at most the rest of the block)", "why_tests_cant": "Injectivity on 2^1600 states cannot be sampled: a wrong rotation or index that merges two states in 2^1600 is invisible to test vectors unless it changes the digest of the vector itself.", "anchors": ["src/sha3.cpp:10-24", "src/sha3.cpp:52-122"]}
{"id": "C113", "title": "RSA keys of certificates are used as encoded or refused", "statement": "parseCertificate applied to the DER encoding of a certificate with an RSA key of any size returns an object with exactly the encoded modulus and exponent, or throws.", "quantifier": "all certificates with readable names and dates, all moduli and exponents of any number of bits", "why_tests_cant": "Moduli above 4096 bits, multiples of 2^4096 and zero are not in any test file; the outcome for all of them needs the exact behaviour of the big number constructor and of the Montgomery constants.", "anchors": ["src/X509Certificate.cpp:199-232", "include/caligo/bignum.h:58-64", "include/caligo/mont.h:30-43"]}
{"id": "C114", "title": "The fields of a verified certificate are determined by the bytes its issuer signed", "statement": "If two files contain the same TBSCertificate, parseCertificate accepts both and verify accepts both with the same issuer, then the two certificate objects have the same serial number, names, dates and key.", "quantifier": "all TBSCertificate contents, all bytes behind them inside and outside the outer SEQUENCE, all issuers", "why_tests_cant": "A key that reaches out of the signed part needs lengths no test file has; that ordinary certificates are not affected has to hold for every sequence of bytes that can follow.", "anchors": ["src/X509Certificate.cpp:251-336", "src/X509Certificate.cpp:358-399", "include/caligo/Asn1.h:36-49"]}
{"id": "C115", "title": "A GCM ciphertext and tag are accepted under one key only", "statement": "If Decrypt of an AES-128-GCM object accepts a ciphertext, additional data and tag, then Decrypt of an object made from another key and the same IV does not accept them.", "quantifier": "all pairs of different keys, all 12-byte IVs, all ciphertexts, additional data and tags; the exact statement: all ciphers, keys, supported IVs and histories of two sessions with different hash subkeys, all prefixes of whole blocks", "why_tests_cant": "A colliding message is found by solving a linear equation in GF(2^128), never by trying messages; that exactly one block works for every pair of sessions and every prefix is a statement about all of them.", "anchors": ["include/caligo/gcm.h:20-109", "include/caligo/ghash.h:1-120"]}
{"id": "C116", "title": "What two GCM messages under one nonce reveal", "statement": "Two objects made from the same key and IV that have processed the same number of messages (modulo 2^64) encrypt so that the exclusive or of the ciphertexts is that of the plaintexts; the hash subkey satisfies a public equation that has at most as many solutions as the longer message has blocks, plus one; and from the hash subkey and one of the messages the one accepted tag of every other ciphertext and additional data under that nonce can be computed.", "quantifier": "all ciphers, keys, supported IVs, histories of equal length, plaintexts, additional data; for the bound: messages below 2^61 bytes", "why_tests_cant": "The number of candidate subkeys and the validity of every computed tag are statements about all messages; a test sees single messages.", "anchors": ["include/caligo/gcm.h:20-109"]}
{"id": "C117", "title": "Every block has exactly one chaining value that it leaves unchanged", "statement": "For MD5, SHA-1, SHA-224, SHA-256, SHA-384 and SHA-512 and every block there is exactly one chaining value such that adding the block to an object at a block boundary with this chaining value leaves the chaining value as it is; such an object can absorb the block any number of times and only its length changes.", "quantifier": "all six classes, all blocks, all contents of the uninitialised chunk, all lengths that are multiples of the block size, all numbers of repetitions", "why_tests_cant": "The chaining values number 2^128 to 2^512; existence and uniqueness follow from every round being a bijection and cannot be sampled.", "anchors": ["src/md5.cpp:99-127", "src/sha1.cpp:74-104", "src/sha2.cpp:56-86", "src/sha2.cpp:159-218"]}
{"id": "C118", "title": "What is accepted twice gives a hash collision", "statement": "If HMAC gives the same value for two pairs of key and text, then the texts are equal and the keys agree once padded and cut to twice the digest length, or one of two named pairs of strings collides under the hash. If a PKCS#1 v1.5 signature is accepted for two data, the data are equal or their SEQUENCE encodings collide, and no signature is accepted under two different hash functions. If a PSS signature is accepted for two messages, they are equal, or collide, or the two strings hashed last with the recovered salt collide. If two certificates with the same signature are accepted under one issuer key, they have the same algorithm, and the same signed part or a SHA-2 collision.", "quantifier": "all keys (any modulus, odd or even, any exponent, of the given width), data below 2^24 bytes, messages below 2^61 bytes, signatures, hash classes and certificates", "why_tests_cant": "It is a statement about pairs of inputs over the whole input space; the pairs that would violate it cannot be found by sampling, because only structural confusion in the encoding code would make them.", "anchors": ["include/caligo/rsa.h:55-125", "include/caligo/pkcs1.h:5-41", "include/caligo/hkdf.h:10-33", "src/X509Certificate.cpp:51-71", "src/X509Certificate.cpp:358-399"]}
{"id": "C119", "title": "X25519: branches and addresses do not depend on the private key", "statement": "X25519 takes the same branches and accesses the same array indices, in the same order, for all private keys and all points. Only conditions that choose a value without a branch in the source text are left out of this view.", "quantifier": "all pairs of private keys and points of 256 bits", "why_tests_cant": "A measurement shows timing for some keys on some machine; independence of every branch and index from the secret is a statement about all pairs of runs.", "anchors": ["README.md:24", "include/caligo/x25519.h:27-153", "include/caligo/bignum.h:23-231"]}
{"id": "C120", "title": "RSA private operation: branches and addresses do not depend on the key", "statement": "rsadp takes the same branches and accesses the same array indices for all private exponents, all odd moduli and all messages of one width. Only conditions that choose a value are left out of this view.", "quantifier": "all widths, odd moduli greater than 1, private exponents and messages of that width", "why_tests_cant": "It is a statement about all pairs of runs; a timing measurement samples a few keys on one machine and compiler.", "anchors": ["README.md:24", "include/caligo/rsa.h:141-143", "include/caligo/mont.h:44-101"]}
{"id": "C121", "title": "The choices in exp reveal the private exponent", "statement": "No event of the RSA private operation, including the choices of values made by the conditional operator, depends on the private exponent. (False: whoever sees the outcomes of the conditional operators learns the whole exponent; a compiler is free to turn them into branches.)", "quantifier": "all widths, odd moduli, private exponents and messages", "why_tests_cant": "That two exponents can never be confused by the events is a statement over all pairs of exponents.", "anchors": ["README.md:24", "include/caligo/mont.h:89-98", "include/caligo/rsa.h:141-143"]}
{"id": "C122", "title": "The choices in X25519 depend on the private key", "statement": "No event of X25519, including the choices of values made by the conditional operator in subtraction, depends on the private key. (False: two keys that differ in one bit give different events in the third pass of the ladder.)", "quantifier": "all private keys and points", "why_tests_cant": "The claim is over all pairs of keys; the exact truth without the choices (C119) is as well.", "anchors": ["README.md:24", "include/caligo/x25519.h:49-55", "include/caligo/bignum.h:161-169"]}
{"id": "C123", "title": "AES-GCM with a 12-byte IV: all events depend on lengths only", "statement": "A new GCM object with a 12-byte IV that encrypts any list of messages takes the same branches, accesses the same array indices and makes the same choices for all keys, IVs, texts and additional data of the same lengths.", "quantifier": "all keys of equal length, all 12-byte IVs, all lists of messages with equal lengths, AES-128 and AES-256", "why_tests_cant": "It relates all pairs of runs of whole sessions; a timing test samples some of them.", "anchors": ["README.md:24", "include/caligo/gcm.h:13-157", "include/caligo/aes.h:26-38", "src/aes.cpp:20-67"]}
{"id": "C124", "title": "The comparison of tags reveals the right tag byte by byte", "statement": "Two tags that GCM Decrypt rejects cannot be told apart by its branches and array indices. (False: the comparison stops at the first difference.)", "quantifier": "all ciphers, keys, IVs, ciphertexts, additional data and tags", "why_tests_cant": "The exact leak, and that an adaptive attacker always succeeds, are statements about all keys, messages and tags.", "anchors": ["README.md:24", "include/caligo/gcm.h:81-114"]}
{"id": "C125", "title": "ctr_inc reveals the counter for IVs that go through GHASH", "statement": "With every IV the events of GCM Encrypt depend on lengths only. (False for IVs of 8 or more than 12 bytes: the early returns of ctr_inc show when the last byte of the key dependent counter wraps.)", "quantifier": "all AES-256 keys, IVs and messages", "why_tests_cant": "The exact part revealed is a statement over all pairs of keys.", "anchors": ["README.md:24", "include/caligo/gcm.h:18-34", "include/caligo/gcm.h:137-152"]}
{"id": "C126", "title": "Hashing, HMAC and the key schedule: events depend on lengths only", "statement": "The branch outcomes, array indices and conditional choices of hashing with any class but CRC32, of HMAC and of the TLS 1.3 key schedule are the same for all keys, secrets and messages of the same lengths; with every access checked no array is left and the results are those of the model (for hashing: of the standard).", "quantifier": "all hash classes but CRC32, all pairs of messages, keys and secrets of equal lengths, all junk contents", "why_tests_cant": "Non-interference is a statement about pairs of runs; a test compares timings of a few of them.", "anchors": ["README.md:24", "include/caligo/sha2.h", "include/caligo/sha3.h", "include/caligo/hmac.h", "include/caligo/hkdf.h"]}
{"id": "C127", "title": "ChaCha20: events depend on lengths only", "statement": "The branch outcomes, array indices and choices of constructing a ChaCha20 object and of en- or decrypting any sequence of pieces are the same for all keys, nonces and data of the same lengths; with every access checked no array is left and the output is the data xor the key stream of RFC 8439.", "quantifier": "all keys, nonces, piece sequences and prior contents of the buffer", "why_tests_cant": "Non-interference is a statement about pairs of runs.", "anchors": ["README.md:24", "include/caligo/chacha20.h"]}
{"id": "C128", "title": "CRC32 reveals the data", "statement": "The events of hashing with CRC32 depend on the length only. (False: the indices into the table determine the data; with HMAC<CRC32> they determine a key of up to eight bytes and the message.)", "quantifier": "all pairs of messages; all pairs of keys of equal length up to 8", "why_tests_cant": "That the events determine all bytes is a statement about all pairs of messages.", "anchors": ["README.md:24", "include/caligo/crc.h", "include/caligo/hmac.h"]}
{"id": "C129", "title": "base64 and base64d reveal the data", "statement": "The events of encoding and decoding base64 depend on the length only. (False: equal events imply equal data and equal text. base64d is used for private keys in PEM files.)", "quantifier": "all byte strings, texts, character sets and options", "why_tests_cant": "Injectivity over all pairs of inputs.", "anchors": ["README.md:24", "src/base64.cpp", "src/X509Certificate.cpp:408"]}
{"id": "C130", "title": "Generating a prime does not reveal the prime through what the program does", "statement": "For every size and any random values, the branches, memory addresses and picked operands of random_prime (and of the primality test on a given number) are the same whatever prime is found, as README.md asks of all implementations. The claim is false; what is proved is the opposite extreme: two runs with equal events have found the same prime, and the events of the test of any odd number of at least 7920, or of any prime, determine that number.", "quantifier": "all widths, all numbers, all states of the random generator, any number of rounds", "why_tests_cant": "A test can compare the events of two primes; it can't show that the events of any two different primes differ, which is what makes the recording as good as the key.", "anchors": ["include/caligo/random_prime.h:12-26", "include/caligo/random_prime.h:28-104", "include/caligo/random_prime.h:106-115", "README.md:24"]}
{"id": "C131", "title": "The branches and addresses of generating a prime do not depend on the prime", "statement": "Even if the choice between two operands (conditional) is assumed to leave no trace, the branches and addresses of random_prime are the same whatever prime is found. The claim is false. Proved instead: two primes found with equal branches and addresses have the same power of two in p-1, the same of the 1000 smallest primes are squares modulo both, and both are squares modulo the same ones of them; for the test of two primes that are 3 modulo 4 with equally many leading zero words the branches and addresses are equal exactly if the same of the 1000 smallest primes are squares modulo both.", "quantifier": "all widths, all primes of at least 7920, all states of the random generator, any number of rounds", "why_tests_cant": "What leaks is one bit for each of 1000 small primes, a statement about quadratic residues; runs can only show that some pair of primes differs, not which facts about the prime the events are equivalent to.", "anchors": ["include/caligo/random_prime.h:12-26", "include/caligo/random_prime.h:28-104", "include/caligo/random_prime.h:106-115", "README.md:24"]}
{"id": "C132", "title": "Threads that draw random values at the same time do not disturb each other", "statement": "However the accesses of several threads to the state of the generator interleave, the threads receive what they would receive if whole calls of generate_random_value followed each other in some order (README, Multithreading: 'No global state exists, no shared state exists'). The claim is false: the static variable cval is shared and unprotected. Proved instead: if calls do not overlap the claim holds, for any number of threads and calls; threads that run in step all receive the same stream, whatever their number, and so generate the same X25519 key; one late store sets the generator back, so that a thread receives again, value for value, what it has received before; and with any interleaving whatsoever all values are made of states at most 2n steps from the start when n values were drawn.", "quantifier": "all start states, all numbers of threads, all schedules of single loads and stores", "why_tests_cant": "A race shows in few of the interleavings and a test cannot choose the schedule; the sanitizers only report that a race exists, not what it does to the values.", "anchors": ["include/caligo/random.h:12-35", "README.md:15-17"]}
{"id": "C133", "title": "The MD5 and SHA-1 classes have the published collisions, and a signature over one message is one over the other", "statement": "For every suffix the two 128-byte messages of Wang and Yu followed by it are different and have the same MD5 digest, and the two 320-byte beginnings of the SHAttered files followed by it are different and have the same SHA-1 digest, as computed by the classes of the library and by the specification; for every RSA key, every salt length, every suffix and every signature validatePssSignature with MD5 or SHA-1 gives the same answer for both messages.", "quantifier": "all suffixes, all keys, all salt lengths, all signatures", "why_tests_cant": "A test can compare two digests for one suffix; that every suffix and every key inherits the collision needs the structure of the hash and of the signature check.", "anchors": ["src/md5.cpp:1-130", "src/sha1.cpp:1-107", "include/caligo/rsa.h:112-125"]}
{"id": "C134", "title": "With the hardware generator every value is equally likely", "statement": "In the build with PLATFORM_HAS_RDSEED, for every state, every 64-bit value is returned by generate_random_value for exactly one of the 2^64 values that the instruction can deliver. The claim is false: already in the first call of a process one value is returned for four of them. Proved instead: in every state every value is returned for at most four hardware values, and every sequence of n values for at most 4^n sequences of hardware values; and if the instruction delivers nothing (the code does not look at the flag that says so) the generator continues, without a sign, as the generator without entropy.", "quantifier": "all states, all returned values, all numbers of calls, all hardware values", "why_tests_cant": "The bound speaks about all 2^64 hardware values in all 2^64 states; statistics of outputs cannot tell 62 from 64 bits of entropy.", "anchors": ["include/caligo/random.h:12-35", "include/caligo/random.h:37-41"]}
{"id": "C135", "title": "Reading certificates and keys comes to an end", "statement": "parseCertificate, parseCertificatesPem and parsePrivateKey return or throw after finitely many steps, whatever bytes they are given. The claim is false: a certificate whose modulus is 0 modulo 2^4096, and a private key file of ten bytes whose second field is not an INTEGER, keep the constructor of the Montgomery state busy for ever. Proved instead, for all byte strings: this is the only way. The loops over names, over the fields behind the key and over the certificates of a bundle always end; parseCertificate can stay for ever only after having read a modulus of value 0 with an exponent of at least 17, never on bytes in which the identifier of RSA encryption does not occur, and parsePrivateKey exactly if it reads a modulus of value 0.", "quantifier": "all byte strings, both formats", "why_tests_cant": "That no input makes a loop run for ever is a statement about all inputs; a test cannot even observe that a run will never end.", "anchors": ["src/X509Certificate.cpp:157-193", "src/X509Certificate.cpp:224-249", "src/X509Certificate.cpp:316-332", "src/X509Certificate.cpp:338-356", "src/X509Certificate.cpp:401-428", "include/caligo/bignum.h:93-108"]}
{"id": "C136", "title": "The bytes of an accepted certificate cannot be changed unnoticed", "statement": "A certificate that an issuer's key accepts is the only file with its fields that this key accepts. The claim is false: bytes behind the certificate are ignored. Proved instead, for all files: whatever is appended to a DER certificate that can be read, the fields and the verdict of verify for every issuer stay the same; and for all certificates with the same signed part, the same content of the algorithm identifier and the same signature bytes, verify gives the same verdict whatever the tag of the identifier, the parameters behind it and the number of unused bits are.", "quantifier": "all byte strings, all issuers, all appended bytes, all signed parts, identifiers, signatures, tags and parameters", "why_tests_cant": "Tests verify a handful of certificates as they are; that no change of certain bytes can be noticed is a statement about all files and all changes.", "anchors": ["src/X509Certificate.cpp:251-336", "src/X509Certificate.cpp:358-399", "include/caligo/Asn1.h"]}
{"id": "C137", "title": "Generating a prime comes to an end", "statement": "random_prime<N> returns after finitely many rounds, whatever state the random generator is in, for every N that is a multiple of 32 and with or without strict_fips. Proved for N up to 256 for every state, including states with queued test values. Proved for every N: from a state without queued values it returns exactly if the test accepts a candidate drawn in some state that agrees with it in the lowest bits, as many as 2 divides the number of generator steps in a round; no other property of the state matters.", "quantifier": "all generator states, all widths that are multiples of 32 (the unconditional part: widths up to 256 bits)", "why_tests_cant": "A run that has not returned may return later, and there are 2^64 states; tests start from one state.", "anchors": ["include/caligo/random_prime.h:106-115", "include/caligo/random.h:12-52"]}
{"id": "C138", "title": "A hash collision is a collision of processChunk", "statement": "Two different messages of less than 2^61 bytes for which an MD5, SHA-1, SHA-256 or SHA-512 object of the library returns the same bytes yield a position in each of the two computations where processChunk is applied to different pairs of chaining value and block and returns the same chaining value. For SHA-224 and SHA-384 the same holds, or the two final states are different and agree in the bytes that are returned. So padding, length field, buffering and output add no collisions of their own.", "quantifier": "all pairs of different messages below 2^61 bytes, six hash classes", "why_tests_cant": "Tests hash single messages; the statement is about all pairs of messages with the same digest, of which for SHA-2 none is known.", "anchors": ["src/md5.cpp:39-127", "src/sha1.cpp:14-104", "src/sha2.cpp:17-108", "src/sha2.cpp:131-277"]}
{"id": "C139", "title": "What the RSA operations without padding allow", "statement": "rsaep and rsadp take products modulo n to products. For a valid key pair the decryption of c * r^e is r times the decryption of c, so decryptions of other ciphertexts give away that of c. If m^e < n, rsaep returns the integer m^e. For two keys with the same modulus and e * a = f * b + 1 the two ciphertexts r and r' of m satisfy r^a = r'^b * m modulo n. For n = p * q with different odd primes and e > 0 exactly (gcd(p-1, e-1) + 1) * (gcd(q-1, e-1) + 1) messages below n are returned unchanged by rsaep, which is at least nine if e is odd.", "quantifier": "all word counts, all moduli (odd, more than 1, or products of two odd primes), all exponents and messages", "why_tests_cant": "The statements relate the results for different inputs, and count over all messages below the modulus.", "anchors": ["include/caligo/rsa.h:16-60", "include/caligo/mont.h:11-109"]}
{"id": "C140", "title": "What ciphertexts of the unauthenticated modes show about the plaintexts", "statement": "ChaCha20: for two sessions with the same key and nonce, cut into calls in any way, the exclusive or of the outputs is the exclusive or of the inputs at every position; in particular changing ciphertext bits changes the same plaintext bits. ECB: two ciphertext blocks are equal exactly if the plaintext blocks are. CBC under one key and IV: two ciphertexts agree in their first k blocks exactly if the plaintexts do, and any two ciphertext blocks are equal exactly if the plaintext blocks xored with the preceding ciphertext blocks (or the IV) are.", "quantifier": "all keys, nonces, IVs, messages and divisions into calls; for ECB and CBC every block cipher with an inverse", "why_tests_cant": "The statements relate the results of different sessions on arbitrary messages.", "anchors": ["include/caligo/chacha20.h:20-109", "include/caligo/legacy/ecb.h:16-27", "include/caligo/legacy/cbc.h:17-33"]}
{"id": "C141", "title": "Received X25519 values that lead to the same shared secret", "statement": "Two different residues, neither of low order, never lead to the same shared secret for a private key. The exact truth: they do exactly if eight times the points over them are equal up to sign, which does not depend on the private key; a residue and its inverse modulo 2^255-19 always lead to the same secret.", "quantifier": "all private keys and all pairs of received values", "why_tests_cant": "The statement compares results for all pairs of 256 bit values and all keys; a test would have to know that the inverse of a u-coordinate belongs to the same class to find a coincidence.", "anchors": ["include/caligo/x25519.h:121-156"]}
{"id": "C142", "title": "What AES round keys tell about the key", "statement": "AES-128: any single round key determines the key, so two keys that differ have different round keys in every round, and every block is the n-th round key of some key. AES-256: any two neighbouring round keys determine the key, and every pair of blocks is the pair of round keys n and n+1 of some key, so that one round key alone says nothing.", "quantifier": "all keys, all rounds, all previous contents of the schedule's memory", "why_tests_cant": "The statement is about pairs of keys out of 2^128 or 2^256 and about existence of keys for given round keys.", "anchors": ["src/aes.cpp:13-67", "include/caligo/aes.h:17-24"]}
{"id": "C143", "title": "The secrets of the key schedule determine what they were made from", "statement": "If two computations give the same handshake secret, master secret, traffic secret or Finished key, then they were made from the same shared secret, the same previous secret, the same transcript hash, the same side (client or server) and the same stage, or two different strings among those that the computations hash have the same digest. The same holds from the shared secret of the key agreement to the Finished key.", "quantifier": "all hash classes, shared secrets, secrets of the digest's length, transcript hashes of at most 255 bytes, sides and stages", "why_tests_cant": "The statement relates all pairs of sessions; a pair that violates it without a hash collision cannot be found by sampling.", "anchors": ["include/caligo/hkdf.h:11-87"]}
{"id": "C144", "title": "How many X25519 shared secrets there are", "statement": "Whatever the private key, the number of different results of X25519 over all received values is exactly 1 + (l-1)/2 + (l'-1)/2, where l = 2^252 + 27742317777372353535851937790883648493 and l' = 2^253 - 55484635554744707071703875581767296995 are the orders of the large subgroups of the curve and of its twist; and the set of results is the same for all private keys.", "quantifier": "all private keys; the count is over all received values", "why_tests_cant": "The number of results is about 2^252.", "anchors": ["include/caligo/x25519.h:121-156"]}
{"id": "C145", "title": "What an observer sees of a whole RSA signature", "statement": "README.md:24 expects all implementations to be side-channel free. For RsaPrivateKey::sign as a whole (message encoding, hashing, MGF1, conversion between bytes and numbers, private operation, removal of leading zero bytes): two runs with moduli of the same number of bytes, messages of the same length and any private exponents, salts and contents of uninitialised arrays take the same branches and access the same array indices, if conditions that only choose a value are not seen. For PKCS #1 this holds when the two signatures have the same length and agree in whether they begin with a zero byte, which whoever gets the signature knows. With every array access checked, the runs compute what the functions compute.", "quantifier": "all private keys with odd moduli of a width, messages and salts of any length, all signature schemes, all states of the generator, all contents of uninitialised arrays", "why_tests_cant": "A statement about pairs of executions over all secrets; tests see neither branches nor addresses.", "anchors": ["README.md:24", "src/X509Certificate.cpp:73-100", "include/caligo/rsa.h:23-82", "include/caligo/rsa.h:142-163", "include/caligo/pkcs1.h:5-41", "include/caligo/bignum.h:58-64", "include/caligo/bignum.h:117-126"]}
{"id": "C146", "title": "Observed random bytes do not give away earlier ones", "statement": "Knowing sixteen consecutive bytes from generate_random leaves at least some byte undetermined that was drawn earlier, however many bytes lie in between.", "quantifier": "every state of the generator, any number of bytes drawn before", "why_tests_cant": "Whether the past can be computed from the present is a statement about all 2^64 states; statistical tests of the stream do not find it.", "anchors": ["include/caligo/random.h:12-35", "include/caligo/random.h:65-74"]}
{"id": "C147", "title": "A signature does not give away private keys that were made earlier", "statement": "An X25519 private key is drawn, any number of further random bytes is drawn, then a message is signed with one of the six PSS schemes, as a TLS server does in a handshake. Whoever sees the signature and knows the public RSA key cannot compute the X25519 private key.", "quantifier": "all RSA key pairs with moduli of at least 130 whole bytes, all messages, all PSS schemes, every number of random bytes in between, every state of the generator", "why_tests_cant": "An attack is a function of the signature alone that works for all keys, messages and states.", "anchors": ["include/caligo/random.h:12-35", "include/caligo/x25519.h:114-118", "src/X509Certificate.cpp:73-100", "include/caligo/rsa.h:55-82", "include/caligo/rsa.h:154-163"]}
{"id": "C148", "title": "Colliding blocks multiply: k of them give 2^k messages with one digest", "statement": "If each of k pairs of blocks collides in processChunk after the chaining value that the pairs before it lead to, the 2^k messages made by taking one side of each pair are different, have one length, and all have the same digest under MD5, SHA-1 or any SHA-2 class of the library, after every prefix of whole blocks and with every suffix. If k is more than the number of bits in the result of a second hash class, two of the messages agree in both hashes, so two hashes next to one another are no stronger than the weaker of them. Such pairs exist in all six classes for every k and every prefix.", "quantifier": "all six classes that chain blocks, every second class, all lists of pairs, all prefixes of whole blocks, all suffixes", "why_tests_cant": "A statement about 2^k messages for every k, all prefixes and all suffixes.", "anchors": ["src/md5.cpp:38-61", "src/sha1.cpp:13-36", "src/sha2.cpp:17-40", "src/sha2.cpp:131-155"]}
{"id": "C149", "title": "Differences spread through AES: 25 S-box look-ups in any four rounds", "statement": "When two different blocks are encrypted with the same round keys, whatever these are, at least 5 S-box look-ups differ in every two consecutive rounds and at least 25 in every four; over a whole encryption at least 55 of 160 with AES-128 and 80 of 224 with AES-256. A given input difference of the S-box leads to a given output difference for at most 4 of the 256 inputs.", "quantifier": "all pairs of different blocks, all keys and all lists of round keys, all four consecutive rounds, all pairs of S-box differences", "why_tests_cant": "A minimum over 2^255 pairs of blocks and all keys; the extremal pairs are not found by sampling.", "anchors": ["include/caligo/aes.h:26-38", "src/aes.cpp:20-67"]}
{"id": "C150", "title": "A SHA-3 collision with equal final states is an inner collision, and an inner collision gives collisions with every suffix", "statement": "For the four SHA-3 sizes: if two different messages have the same result, then either the two final states differ (and only their shown bytes agree), or the padded messages without their last blocks are different and leave the lanes behind the rate, which no message byte reaches, with the same contents. Conversely from any two different sequences of whole blocks that leave those lanes the same, and any further block b, the block b' obtained from b and the two states by exclusive or makes messages that collide with every common suffix.", "quantifier": "all four sizes, all messages below 2^63 bytes, all prefixes of whole blocks, all blocks and all suffixes", "why_tests_cant": "No collision is known, so no test can show either direction; the statement is about every pair of messages.", "anchors": ["include/caligo/sha3.h", "src/sha3.cpp"]}
{"id": "C151", "title": "The work that Truststore::trust does is bounded by the number of certificates", "statement": "In every call of trust, whatever the store and the presented certificates are, the signature of every presented certificate is checked at most once, so that N certificates cost at most N signature checks, and the loop, which starts again from the first certificate after every check, makes at most N * (N + 1) passes.", "quantifier": "all stores, all lists of certificates (also with equal, empty or cyclic names), all times", "why_tests_cant": "A list that makes the loop repeat a check would be an attack on availability; whether there is one among all lists of all lengths cannot be tested.", "anchors": ["src/Truststore.cpp:54-75"]}
{"id": "C152", "title": "The rounds of ChaCha20 lose nothing, and the constants keep its columns apart", "statement": "The ten double rounds of GenerateBlock are a bijection on states of sixteen 32-bit words. So blocks made from different keys, block counters or nonces have different words before the final addition, and a block of the key stream is the sum of those words and of the words put in: who knows the block, counter and nonce knows eight of the sixteen words. States whose four columns are equal keep equal columns in every number of double rounds, but no key, counter and nonce give such a state because of the constants.", "quantifier": "all 2^512 states; all keys of 32 bytes, nonces of 12 bytes and counters", "why_tests_cant": "A slip in an index or rotation that merges two states, or lets the columns stay apart, need not show in the vectors of the RFC; the statement is about 2^512 states.", "anchors": ["include/caligo/chacha20.h:10-90"]}
{"id": "C153", "title": "CRC32 detects every triple bit error in messages of up to 11454 bytes", "statement": "Two messages of at most 11454 bytes that differ in exactly three bits have different CRC32 values; in messages of 11455 bytes there are three bits that can be changed without changing the CRC32.", "quantifier": "all messages of at most 11454 bytes and all triples of bit positions; the bound is exact", "why_tests_cant": "There are more than 10^14 triples of positions and every message to combine them with; only the arithmetic of the polynomial shows that none of them cancels.", "anchors": ["src/crc.cpp:8-53"]}
{"id": "C154", "title": "Different HMAC keys give different MACs", "statement": "For every two different keys there is a message whose MACs under the two keys differ.", "quantifier": "all hash classes but CRC32, all keys, all messages", "why_tests_cant": "Whether two keys agree on all messages cannot be tested; that other keys differ rests on a reduction to a hash collision.", "anchors": ["include/caligo/hkdf.h:11-22"]}
{"id": "C155", "title": "CRC32 respects exclusive or, and a message followed by its checksum has a fixed one", "statement": "For three messages of one length the CRC32 of their bytewise exclusive or is the exclusive or of their checksums; so somebody who flips chosen bits of a message that they do not know can correct the checksum. The checksum of two messages one after the other is determined by their checksums and the length of the second. Four bytes after a message give the whole the checksum 2144DF1C exactly if they are the checksum of the message, least significant byte first.", "quantifier": "all messages, of every length", "why_tests_cant": "The statements relate checksums of arbitrary messages; the last one is an equivalence over 2^32 values for each message.", "anchors": ["src/crc.cpp:45-62"]}
{"id": "C156", "title": "The steps of SHA-3 treat all bit positions alike, and only the round constants do not", "statement": "Theta, rho, pi and chi commute with rotating all 25 lanes by any number of bits, so without constants a state with such a symmetry keeps it through any number of rounds. With its constant no round commutes with any rotation (other than by multiples of 64) on any state.", "quantifier": "all states, all rotations, all 24 rounds", "why_tests_cant": "2^1600 states.", "anchors": ["src/sha3.cpp:52-122"]}
{"id": "C157", "title": "AES rounds treat the columns alike, the key schedule does not", "statement": "Whatever the round keys are, AesEncrypt of a block with its four columns rotated, under round keys with their columns rotated in the same way, is the ciphertext with its columns rotated, and is defined exactly when that is. In particular equal columns stay equal under round keys with equal columns. The key schedule keeps this from being usable: no AES-128 key and no AES-256 key has the round keys of any key (itself included) with the columns rotated by 1, 2 or 3.", "quantifier": "all lists of round keys, all blocks, all widths, all pairs of keys", "why_tests_cant": "The symmetry is a relation between encryptions under related round keys, and that no related pair of keys exists is a statement about 2^256 or 2^512 pairs.", "anchors": ["include/caligo/aes.h:26-38", "src/aes.cpp:13-67"]}
