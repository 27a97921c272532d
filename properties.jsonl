{"id": "C01", "title": "Hash framing of byte-string lists is unambiguous", "statement": "common.SHA512_256(parts...) returns nil exactly for zero parts; otherwise two calls that give different lists of byte strings never feed the same octets to the hash, so equal digests mean equal part lists or an actual SHA-512/256 collision.", "quantifier": "all pairs of lists of byte strings, of any lengths and contents (including the delimiter byte)", "why_tests_cant": "A test samples finitely many part lists; ambiguity is an existential over all pairs of lists.", "anchors": ["common/hash.go: SHA512_256, hashInputDelimiter"]}
{"id": "C02", "title": "Integer and tagged hashes bind magnitudes and nothing else", "statement": "SHA512_256i and SHA512_256i_TAGGED feed the hash an encoding that determines the number of integers and each absolute value (and the tag digest); they do not bind the sign: negating any input leaves the digest unchanged, and in the tagged form nil hashes like 0.", "quantifier": "all tags, all lists of integers (signed, zero, nil)", "why_tests_cant": "Needs injectivity over unbounded integers and the exact class of aliases.", "anchors": ["common/hash.go: SHA512_256i, SHA512_256i_TAGGED, SHA512_256iOne"]}
{"id": "C03", "title": "RejectionSample lands in the field", "statement": "For positive q, RejectionSample(q, h) is the residue of h modulo q and so lies in [0,q); the round-4/round-3 Schnorr challenge is therefore always a reduced scalar.", "quantifier": "all positive moduli and all digests", "why_tests_cant": "Range claims over all integers.", "anchors": ["common/hash_utils.go: RejectionSample"]}
{"id": "C04", "title": "Random integers fall in the promised range and every value can occur", "statement": "GetRandomPositiveInt(n) returns a value in [0,n) and returns nil exactly for n<=0/nil; every value in [0,n) occurs for some tape; MustGetRandomInt(bits) panics exactly outside 1..5000 and otherwise returns a value in [0,2^bits-1); GetRandomPositiveRelativelyPrimeInt(n) only returns members of the multiplicative group mod n.", "quantifier": "all bounds and all random tapes", "why_tests_cant": "The tape is unbounded randomness; a test sees a few draws.", "anchors": ["common/random.go: MustGetRandomInt, GetRandomPositiveInt, GetRandomPositiveRelativelyPrimeInt, IsNumberInMultiplicativeGroup"]}
{"id": "C05", "title": "Left padding preserves value and length", "statement": "PadToLengthBytesInPlace(src,n) has length max(len(src),n), denotes the same big-endian integer, and only prepends zeros.", "quantifier": "all byte strings and all target lengths", "why_tests_cant": "All lengths and contents.", "anchors": ["common/slice.go: PadToLengthBytesInPlace"]}
{"id": "C06", "title": "Byte/integer list conversions and non-empty checks are exact", "statement": "BigIntsToBytes followed by MultiBytesToBigInts returns the absolute values; exactly nil and 0 become empty strings, and no string starts with a zero byte; NonEmptyMultiBytes(bzs, n) is true iff the list is non-empty, has n elements when n is given, and no element is empty.", "quantifier": "all lists of integers / byte strings", "why_tests_cant": "Unbounded lists.", "anchors": ["common/slice.go: BigIntsToBytes, MultiBytesToBigInts, NonEmptyBytes, NonEmptyMultiBytes"]}
{"id": "C07", "title": "ModInt arithmetic is arithmetic of residues", "statement": "ModInt(n).Add/Sub/Mul/Exp/ModInverse return a value in [0,n) that is congruent to the mathematical result; ModInverse returns nil iff the argument is not invertible.", "quantifier": "all moduli n>0 and all integers", "why_tests_cant": "Universal over integers.", "anchors": ["common/int.go: ModInt, Add, Sub, Mul, Exp, ModInverse, IsInInterval"]}
{"id": "C08", "title": "Party index is the rank of the party's key", "statement": "SortPartyIDs returns the same parties sorted by key with indices 0..n-1; for distinct keys the result does not depend on the order of the input, so all participants agree on who is index i.", "quantifier": "all lists of party ids and all permutations of them", "why_tests_cant": "All permutations and list lengths.", "anchors": ["tss/party_id.go: SortPartyIDs, Less, Keys"]}
{"id": "C09", "title": "Lookup and exclusion of party ids are exact", "statement": "FindByKey returns a party iff one with that key is in the list, and then the first one; Exclude removes exactly the entries with that key and keeps the order; ValidateBasic is exactly 'non-nil, non-nil key, index >= 0' (an empty but non-nil key passes).", "quantifier": "all id lists and keys", "why_tests_cant": "All lists.", "anchors": ["tss/party_id.go: FindByKey, Exclude, ValidateBasic"]}
{"id": "C10", "title": "Operations on one key never affect another party", "statement": "Every exported keygen and signing call with key k leaves the state stored under every other key, and the whole other registry, unchanged, whatever it returns, including when it panics.", "quantifier": "all states, keys, arguments, operations and operation sequences", "why_tests_cant": "Quantifies over all histories.", "anchors": ["eddsacmp/keygen/local_party.go: Parties", "eddsacmp/onsign/local_party.go: SignParties", "eddsa.go"]}
{"id": "C11", "title": "Calls with an unknown key fail cleanly", "statement": "Every exported call that takes a key of no existing party returns a result that is not Ok, carries an error text, never panics, and leaves all state unchanged.", "quantifier": "all states and arguments, every operation", "why_tests_cant": "All states and arguments.", "anchors": ["eddsacmp/keygen/round_1.go", "eddsacmp/keygen/round_2.go", "eddsacmp/keygen/round_3.go", "eddsacmp/keygen/round_4.go", "eddsacmp/onsign/round_1.go", "eddsacmp/onsign/round_2.go", "eddsacmp/onsign/round_3.go", "eddsacmp/onsign/round_final.go"]}
{"id": "C12", "title": "Remove is exact and final", "statement": "Removing a party returns true iff it existed; afterwards every call with that key reports that the party is not found until it is created again; no other party is touched.", "quantifier": "all states, keys and later histories without a re-creation", "why_tests_cant": "Ranges over all later histories.", "anchors": ["eddsacmp/keygen/local_party.go: RemoveKeygenParty", "eddsacmp/onsign/local_party.go: RemoveSignParty"]}
{"id": "C13", "title": "Creating a keygen party places it at the requested index", "statement": "NewLocalParty succeeds exactly when at least partyCount ids are given, the first partyCount are decimal integers, partyIndex is in range and the root key is hex; the new party then knows itself as index partyIndex among the ids sorted by absolute value, has empty message slots and replaces any earlier party of that name. Non-decimal ids, missing ids or a bad index crash the process instead of returning an error.", "quantifier": "all argument tuples", "why_tests_cant": "All argument tuples incl. malformed ones.", "anchors": ["eddsacmp/keygen/local_party.go: NewLocalParty"]}
{"id": "C14", "title": "Saving chain codes is all-or-nothing", "statement": "SaveChainCodes succeeds iff the text splits at '|' into exactly partyCount hexadecimal integers; on success exactly these values are stored, on failure nothing changes. The record that key generation returns holds the values of the last successful call, whatever other calls came in between, and none if there was no such call.", "quantifier": "all states, keys and strings", "why_tests_cant": "All strings.", "anchors": ["eddsacmp/keygen/local_party.go: SaveChainCodes"]}
{"id": "C15", "title": "Accepting a round message only touches the sender's slot of that round", "statement": "KeygenRoundNAccept(key, from, bytes) (N=1,2,3) writes only slot `from` of round N of that party, leaving all other slots, rounds and secrets alone, and panics exactly when `from` is not an index of a participant or the bytes are a valid message of another type; Ok is returned iff the bytes are a well-formed round-N message.", "quantifier": "all party states, senders and byte strings", "why_tests_cant": "All byte strings and states.", "anchors": ["eddsacmp/keygen/round_1.go: Round1Accept", "eddsacmp/keygen/round_2.go: Round2Accept", "eddsacmp/keygen/round_3.go: Round3Accept"]}
{"id": "C16", "title": "A rejected message still overwrites the stored one", "statement": "Keygen accept stores the bytes before parsing: after an Ok accept of a good message, an accept of garbage from the same sender returns an error but the good message is gone, RoundNFinish still says Ok and the next Exec fails or crashes. 'Finish Ok implies all stored messages are well-formed' is false; it holds for histories in which every accept returned Ok.", "quantifier": "all histories of accepts", "why_tests_cant": "The failure needs a specific interleaving; the positive half ranges over all histories.", "anchors": ["eddsacmp/keygen/round_1.go: Round1Accept, Round1Finish", "eddsacmp/keygen/round_2.go: Round2Accept, Round2Finish", "eddsacmp/keygen/round_3.go: Round3Accept, Round3Finish"]}
{"id": "C17", "title": "Finish succeeds iff every other party's message arrived", "statement": "KeygenRoundNFinish returns Ok iff each participant other than this one has a non-empty message stored for round N; otherwise the error names the smallest missing index; it changes nothing.", "quantifier": "all party states", "why_tests_cant": "All subsets of arrivals.", "anchors": ["eddsacmp/keygen/round_1.go: Round1Finish", "eddsacmp/keygen/round_2.go: Round2Finish", "eddsacmp/keygen/round_3.go: Round3Finish"]}
{"id": "C18", "title": "Round 3 accepts only openings of the round-1 commitments", "statement": "If KeygenRound3Exec returns Ok then for every other party j the round-2 message parses, its ssid is ours, both points are on the curve, and the hash of (ssid, j, srid, X, A, u) equals the commitment j sent in round 1; so j cannot change its key share after seeing others' shares without a hash collision.", "quantifier": "all party states (adversarial messages)", "why_tests_cant": "Adversarial messages of any content.", "anchors": ["eddsacmp/keygen/round_3.go: Round3Exec", "eddsacmp/keygen/message/messages.go: CommitmentHash"]}
{"id": "C19", "title": "Round 3 is not repeatable", "statement": "Running KeygenRound3Exec a second time folds every peer's randomness into the session randomness twice, so it changes the session randomness (for two parties it cancels the peer's contribution) and the Schnorr proof it emits is for a different challenge than the peers will check. A single successful run gives the xor of all contributions, the same for every party.", "quantifier": "all states; witness for the negative half", "why_tests_cant": "Depends on the call history.", "anchors": ["eddsacmp/keygen/round_3.go: Round3Exec"]}
{"id": "C20", "title": "Round 4 succeeds only if every peer proved knowledge of its share", "statement": "If KeygenRound4Exec returns Ok then for each other party j the round-3 message parses and its Schnorr response z satisfies z*G = A_j + c_j*X_j with c_j the challenge derived from ssid, the common randomness, j, X_j and A_j; and the returned public key is the sum of all public shares.", "quantifier": "all party states (adversarial messages)", "why_tests_cant": "Adversarial messages of any content.", "anchors": ["eddsacmp/keygen/round_4.go: Round4Exec", "crypto/schnorr/schnorr_proof.go: Verify"]}
{"id": "C21", "title": "Honest key generation succeeds and all parties agree", "statement": "If n parties created with the same ids run rounds 1-4 and every message is delivered (any order, duplicates allowed) before the receiver's next round, every call returns Ok, all parties output the same public key, it equals (sum of private shares)*G, and each party's list of public shares is x_j*G at position j.", "quantifier": "all n, all private shares, all randomness, all delivery orders", "why_tests_cant": "Schedules and randomness are unbounded.", "anchors": ["eddsacmp/keygen/round_1.go", "eddsacmp/keygen/round_2.go", "eddsacmp/keygen/round_3.go", "eddsacmp/keygen/round_4.go"]}
{"id": "C22", "title": "Empty root key yields the zero share", "statement": "Creating a keygen party with an empty root key string does not produce a random share: the share is 0 and the public share sent in round 1 commits to the identity; the 'generate a random share' branch is unreachable for parties made through the API.", "quantifier": "all histories through the API", "why_tests_cant": "Reachability over all histories.", "anchors": ["eddsacmp/keygen/local_party.go: NewLocalParty", "eddsacmp/keygen/round_1.go: Round1Exec"]}
{"id": "C23", "title": "Points handed out are on the curve", "statement": "NewECPoint succeeds iff the coordinates satisfy the curve equation; results of Add, ScalarMult, ScalarBaseMult, EightInvEight on valid points are valid points of the same curve.", "quantifier": "all coordinates, points and scalars", "why_tests_cant": "Universal over points.", "anchors": ["crypto/ecpoint.go: NewECPoint, Add, ScalarMult, ScalarBaseMult, isOnCurve"]}
{"id": "C24", "title": "Scalar multiplication is a group action of integers modulo the order", "statement": "For points of order dividing N, (a+b)*P = a*P + b*P, (a*b)*P = a*(b*P), and scalars congruent modulo N act the same, including negative and oversized scalars.", "quantifier": "all scalars and subgroup points", "why_tests_cant": "Universal algebraic law.", "anchors": ["crypto/ecpoint.go: ScalarMult, ScalarBaseMult, Add"]}
{"id": "C25", "title": "EightInvEight clears torsion", "statement": "EightInvEight fixes every point of the prime-order subgroup and sends P+T to P for every T of order dividing 8; so round-3 signing only combines subgroup points.", "quantifier": "all points of a curve with cofactor dividing 8 and order N coprime to 8", "why_tests_cant": "Universal over points.", "anchors": ["crypto/ecpoint.go: EightInvEight"]}
{"id": "C26", "title": "Point flattening round-trips", "statement": "UnFlattenECPoints(FlattenECPoints(ps)) returns ps; odd-length or nil input, nil coordinates and (unless disabled) off-curve pairs are rejected, and nothing else is. FlattenECPoints refuses exactly a nil slice and points that are nil or lack a coordinate.", "quantifier": "all lists of points / integers", "why_tests_cant": "Unbounded lists.", "anchors": ["crypto/ecpoint.go: FlattenECPoints, UnFlattenECPoints"]}
{"id": "C27", "title": "Point gob and JSON encodings round-trip", "statement": "GobDecode(GobEncode P) and UnmarshalJSON(MarshalJSON P) return P for on-curve points of registered curves; inputs naming unknown curves or off-curve coordinates are rejected, and so is a text or a gob encoding cut short. The gob bytes accepted are exactly two length-prefixed chunks, each there in full, of encoded integers that make up a point of the global curve, with anything behind. A text without a curve name stands for whatever curve is the global one; the text null crashes UnmarshalJSON.", "quantifier": "all points, all byte strings", "why_tests_cant": "Unbounded integers.", "anchors": ["crypto/ecpoint.go: GobEncode, GobDecode, MarshalJSON, UnmarshalJSON", "tss/curve.go"]}
{"id": "C28", "title": "Schnorr proofs made by the prover verify", "statement": "Verify accepts Prove's response for the same nonce, secret and challenge; NewZKProof/Verify and NewZKVProof/Verify accept honest proofs.", "quantifier": "all secrets, nonces, sessions", "why_tests_cant": "All secrets and randomness.", "anchors": ["crypto/schnorr/schnorr_proof.go"]}
{"id": "C29", "title": "Schnorr special soundness", "statement": "Two accepted responses for the same commitment and two challenges that differ modulo the (prime) group order determine the secret: x = (z1-z2)/(c1-c2) satisfies x*G = X. All three verifiers accept exactly the transcripts that satisfy their group equation with the challenge they recompute, and never crash on valid points.", "quantifier": "all accepted transcripts", "why_tests_cant": "Universal over adversarial transcripts.", "anchors": ["crypto/schnorr/schnorr_proof.go: Verify"]}
{"id": "C30", "title": "Paillier decryption inverts encryption", "statement": "For N=PQ with P,Q distinct odd primes such that gcd(PQ,(P-1)(Q-1))=1, Decrypt(Encrypt(m)) = m for every 0<=m<N and every unit randomness; Encrypt rejects m outside [0,N).", "quantifier": "all keys, plaintexts, randomness", "why_tests_cant": "Unbounded number-theoretic claim.", "anchors": ["crypto/paillier/paillier.go: EncryptAndReturnRandomness, Encrypt, Decrypt"]}
{"id": "C31", "title": "Paillier homomorphisms", "statement": "Decrypt(HomoAdd(Enc a, Enc b)) = a+b mod N and Decrypt(HomoMult(k, Enc a)) = k*a mod N; operands out of range are rejected.", "quantifier": "all keys, plaintexts, ciphertexts", "why_tests_cant": "Unbounded.", "anchors": ["crypto/paillier/paillier.go: HomoMult, HomoAdd"]}
{"id": "C32", "title": "Paillier key generation yields a usable key", "statement": "Whatever safe primes are delivered, the returned key has N=PQ with P != Q, |P-Q| at least the stated bit bound, PhiN=(P-1)(Q-1) and LambdaN=lcm(P-1,Q-1).", "quantifier": "all sequences of primes delivered by the generator", "why_tests_cant": "The retry loop is unbounded.", "anchors": ["crypto/paillier/paillier.go: GenerateKeyPair"]}
{"id": "C33", "title": "Paillier square-free proof verifies for honest keys, independent of scheduling", "statement": "Proof.Verify accepts a proof made with the private key, rejects N divisible by a small prime or with a wrong response, and its answer does not depend on the order in which its goroutines report.", "quantifier": "all keys, all schedules", "why_tests_cant": "All interleavings.", "anchors": ["crypto/paillier/paillier.go: Proof, Verify, GenerateXs"]}
{"id": "C34", "title": "The signing Paillier scheme is correct and homomorphic", "statement": "alice Paillier: Decrypt(Encrypt m)=m for m in [0,N), Add and MulConst act as plaintext addition and multiplication mod N, malformed ciphertexts (0, >=N^2, not coprime) are rejected; generated keys are products of two distinct primes of the asked size with coprime totient, the published root really is an N-th root, and a public-key message parses back to the same key.", "quantifier": "all keys, messages and ciphertext strings", "why_tests_cant": "Unbounded.", "anchors": ["crypto/alice/paillier/paillier.go: Encrypt, Decrypt, Add, MulConst, isCorrectCiphertext"]}
{"id": "C35", "title": "Encryption-range proofs: honest proofs verify", "statement": "For honest inputs the verification equations of the encryption-range proof hold, and the verifier accepts iff in addition the masked value z1 is within its range bound.", "quantifier": "all keys, plaintexts, randomness, challenges", "why_tests_cant": "All inputs.", "anchors": ["crypto/encproof/proof.go: NewEncryptRangeMessage, Verify"]}
{"id": "C36", "title": "Encryption-range proofs: acceptance implies bounded plaintext relation", "statement": "Acceptance implies the three verification relations, the bound on z1, and two accepting transcripts with the same first message and different challenges give integers that open the ciphertext relation (special soundness equations).", "quantifier": "all accepted transcripts", "why_tests_cant": "Adversarial transcripts.", "anchors": ["crypto/encproof/proof.go: Verify"]}
{"id": "C37", "title": "Malformed range proofs can crash the verifier", "statement": "There are messages a peer can send for which proof verification panics instead of returning an error: a non-numeric z1 string, and a ciphertext not coprime to N when the challenge is negative.", "quantifier": "existential witnesses", "why_tests_cant": "Crash points require searching over adversarial messages.", "anchors": ["crypto/encproof/proof.go: Verify", "crypto/logproof/proof.go: Verify"]}
{"id": "C38", "title": "Log-equality proofs: honest proofs verify", "statement": "For honest inputs every verification equation of the knowledge-of-exponent (log*) proof holds and the verifier accepts iff z1 is in range and z2 is a unit.", "quantifier": "all keys, exponents, randomness", "why_tests_cant": "All inputs.", "anchors": ["crypto/logproof/proof.go"]}
{"id": "C39", "title": "Log-equality challenge does not bind x-coordinates", "statement": "The log* challenge hashes only the y-coordinates of the points and omits the ring-Pedersen bases, so a statement about X and the statement about its negation have the same challenge.", "quantifier": "all statements and proofs", "why_tests_cant": "Equality of challenges for all inputs.", "anchors": ["crypto/logproof/proof.go: NewKnowExponentAndPaillierEncryption, Verify"]}
{"id": "C40", "title": "Paillier-Blum modulus proof: completeness and order-independence", "statement": "For N=PQ with Blum primes, every item the prover produces satisfies x^4 = (-1)^a w^b y and z^N = y mod N; an honest proof verifies iff all challenges are units; the verifier's answer does not depend on goroutine order; even N crashes it; acceptance with W of Jacobi symbol -1 and enough good challenges implies the Blum structure, but W of Jacobi symbol 0 is not excluded and lets a forged proof for a bad modulus through.", "quantifier": "all Blum moduli, randomness and schedules", "why_tests_cant": "All interleavings and moduli.", "anchors": ["crypto/modproof/proof.go"]}
{"id": "C41", "title": "Modulus-proof serialization", "statement": "NewProofFromBytes(Bytes(p)) = p for proofs whose parts are all non-zero; wrong part counts or empty parts are rejected.", "quantifier": "all proofs / byte lists", "why_tests_cant": "Unbounded.", "anchors": ["crypto/modproof/proof.go: Bytes, NewProofFromBytes, ValidateBasic"]}
{"id": "C42", "title": "Ring-Pedersen discrete-log proof: completeness, soundness, serialization", "statement": "dlnproof: honest proofs verify (outside the degenerate t mod N in {0,1} cases), an accepted pair of different challenge bits gives a discrete log of h2, Serialize/Unmarshal round-trip. The verifier never crashes on a proof without nil entries and negative responses, and so never on one that Unmarshal returned; a nil entry crashes it exactly if no entry checked before it is 0 or 1 modulo N (the nil check in the loop is never reached). Unmarshal itself crashes on a first entry whose low 64 bits have the top bit set.", "quantifier": "all moduli, exponents, challenges", "why_tests_cant": "All inputs.", "anchors": ["crypto/dlnproof/proof.go"]}
{"id": "C43", "title": "Ring-Pedersen parameter proof: completeness and two-transcript soundness", "statement": "alice ring-Pedersen parameter proof: honest proofs verify, fewer than the minimum number of challenges is refused, two accepting answers to different challenge bits of the same commitment reveal that s is a power of t; each challenge bit depends on its own commitment only, so one good repetition can be repeated and a false statement can be proved after a few trials.", "quantifier": "all parameters and salts", "why_tests_cant": "All inputs.", "anchors": ["crypto/alice/zkproof/paillier/ring_pedersenzkproof.go"]}
{"id": "C44", "title": "Integer factorization proof: completeness", "statement": "NewIntegerFactorizationProofMessage proofs satisfy z^(y-Ne) = x mod N and verify; the verifier accepts small and prime moduli too: it checks neither size nor compositeness.", "quantifier": "all moduli and randomness", "why_tests_cant": "All inputs.", "anchors": ["crypto/alice/zkproof/integerfactorization.go"]}
{"id": "C45", "title": "Hash commitments: open correctly and bind", "statement": "Decommit/Verify of a fresh commitment returns the committed secrets; two different openings of the same commitment give a hash collision (up to sign of the integers).", "quantifier": "all secrets and randomness", "why_tests_cant": "Universal.", "anchors": ["crypto/commitments/commitment.go"]}
{"id": "C46", "title": "Commitment part builder round-trips", "statement": "ParseSecrets(Secrets(parts)) = parts for up to 3 parts of at most 1M integers whose last part is non-empty; a trailing empty part is lost; a crafted length can crash the parser.", "quantifier": "all part lists", "why_tests_cant": "Unbounded lists.", "anchors": ["crypto/commitments/commitment_builder.go"]}
{"id": "C47", "title": "Child private and public derivation agree", "statement": "For every non-hardened path, the child public key derived from the parent public key equals the child private key times G (Ed25519 and secp256k1 variants); so the derived shares still sum to the derived group key.", "quantifier": "all keys, chain codes and index paths of any length", "why_tests_cant": "Paths of any length.", "anchors": ["crypto/ckd/child_key_derivation_eddsa.go", "crypto/ckd/child_key_derivation.go"]}
{"id": "C48", "title": "Derivation path parsing", "statement": "A path component is accepted iff it is a decimal integer whose low 32 bits are below 2^31 (with optional apostrophe for private derivation); an empty component crashes; public derivation refuses hardened components.", "quantifier": "all strings", "why_tests_cant": "All strings.", "anchors": ["crypto/ckd/child_key_derivation_eddsa.go", "eddsacmp/onsign/local_party.go: NewLocalParty"]}
{"id": "C49", "title": "Extended key strings", "statement": "NewExtendedKeyFromString(String(k)) = k for keys with 4-byte version, 4-byte fingerprint and 32-byte chain code; keys made by this library carry a 1-byte version and never parse back; strings of other length or wrong checksum are rejected; whatever parses re-serialises to the same octets; a parsed key can derive no child; with a curve that is not the Koblitz curve any string of the right length and checksum parses into a key without coordinates. With base58 as published the text is canonical: a text that is accepted is exactly the text its key prints as, and no other text gives that key.", "quantifier": "all extended keys", "why_tests_cant": "All keys.", "anchors": ["crypto/ckd/child_key_derivation.go: String, NewExtendedKeyFromString"]}
{"id": "C50", "title": "Creating a signing party", "statement": "Signing-party creation reports an error for bad base64, bad JSON, a path without 5 components, a bad message; on success, the party's share is the root share plus the derived offset and each public share is derived consistently, so that own public share = own share * G; hardened components crash, and so do refresh payloads that are shorter than the share even after the spare capacity of the decoding buffer is counted (otherwise the missing octets are read from that buffer).", "quantifier": "all argument tuples", "why_tests_cant": "All argument tuples.", "anchors": ["eddsacmp/onsign/local_party.go: NewLocalParty"]}
{"id": "C51", "title": "Signing accepts store only well-formed round-1 messages", "statement": "SignRound1Accept keeps a previously stored message when given malformed bytes, and files each message under its type; round 2/3 accepts overwrite first.", "quantifier": "all states and byte strings", "why_tests_cant": "All byte strings.", "anchors": ["eddsacmp/onsign/round_1.go: OnSignRound1Accept", "eddsacmp/onsign/round_2.go", "eddsacmp/onsign/round_3.go"]}
{"id": "C52", "title": "Signing finish checks are exact", "statement": "SignRoundNFinish returns Ok iff all required slots (including the party's own) are filled; it changes nothing.", "quantifier": "all states", "why_tests_cant": "All subsets of arrivals.", "anchors": ["eddsacmp/onsign/round_1.go", "eddsacmp/onsign/round_2.go", "eddsacmp/onsign/round_3.go"]}
{"id": "C53", "title": "Signing aborts on an invalid peer proof", "statement": "SignRound2Exec Ok implies the encryption proof of each peer verified against that peer's context, key and our ring-Pedersen parameters; SignRound3Exec Ok implies each peer's log proof verified; failures name the peer.", "quantifier": "all states", "why_tests_cant": "Adversarial messages.", "anchors": ["eddsacmp/onsign/round_2.go: OnSignRound2Exec", "eddsacmp/onsign/round_3.go: OnSignRound3Exec"]}
{"id": "C54", "title": "A released signature verifies", "statement": "If the final signing call returns Ok, the returned signature verifies under the group key for the message bytes held by the party.", "quantifier": "all states (adversarial shares)", "why_tests_cant": "Adversarial shares.", "anchors": ["eddsacmp/onsign/round_final.go: OnSignFinal"]}
{"id": "C55", "title": "Honest signing produces a valid signature for any number of parties", "statement": "If all parties run honestly with shares x_j and nonces k_j, the combined (R,s) satisfies s*G = R + H(R,A,M)*A, every party outputs the same signature, and the final call returns Ok.", "quantifier": "all n, shares, nonces, messages, delivery orders", "why_tests_cant": "Unbounded.", "anchors": ["eddsacmp/onsign/round_3.go", "eddsacmp/onsign/round_final.go"]}
{"id": "C56", "title": "Leading zero bytes of the message are not signed", "statement": "The message is held as an integer: messages that differ only in leading zero bytes yield the same signed bytes, and the signature returned is over the stripped message.", "quantifier": "all messages", "why_tests_cant": "Universal; negative half by witness.", "anchors": ["eddsacmp/onsign/local_party.go", "eddsacmp/onsign/round_3.go", "eddsacmp/onsign/round_final.go"]}
{"id": "C57", "title": "Scalar and point encodings used in signing", "statement": "encodedBytesToBigInt(bigIntToEncodedBytes(a)) = a for 0<=a<2^256 (longer values are truncated); the encoded point is the 32-byte little-endian y with the parity of x in the top bit, so distinct on-curve points encode differently.", "quantifier": "all integers and points", "why_tests_cant": "Universal.", "anchors": ["eddsacmp/onsign/utils.go"]}
{"id": "C58", "title": "Projective to extended conversion is correct when z is a unit", "statement": "ecPointToExtendedElement represents the same affine point whenever the random z is non-zero mod p.", "quantifier": "all points and z", "why_tests_cant": "Universal.", "anchors": ["eddsacmp/onsign/utils.go: ecPointToExtendedElement"]}
{"id": "C59", "title": "Restricting save data to the signing parties", "statement": "BuildLocalSaveDataSubset with the full sorted id list is the identity; for each requested id it copies that party's key and public share to the new position, unknown ids give an error; for a strict subset the public-share list keeps stale trailing entries; more ids than parties, all known, panic.", "quantifier": "all save data and id lists", "why_tests_cant": "All lists.", "anchors": ["eddsacmp/keygen/save_data.go: BuildLocalSaveDataSubset"]}
{"id": "C60", "title": "Safe-prime pairs are well-formed", "statement": "Every pair emitted by the safe-prime search satisfies p=2q+1, both pass the primality test used, p has exactly the requested bit length, and the number of primes returned is the number requested.", "quantifier": "all random tapes, candidate sequences and schedules", "why_tests_cant": "Unbounded search and schedules.", "anchors": ["common/safe_prime.go"]}
{"id": "C61", "title": "Safe-prime search shutdown", "statement": "Depending on the schedule the generator's workers can remain blocked on a full channel after enough primes were found, so that the call never returns; whenever it returns, all workers have stopped.", "quantifier": "all schedules", "why_tests_cant": "A specific interleaving.", "anchors": ["common/safe_prime.go: GetRandomSafePrimesConcurrent, runGenPrimeRoutine"]}
{"id": "C62", "title": "Party driver: lock balance and no effect of invalid messages", "statement": "Concurrent BaseStart/BaseUpdate calls exclude each other, take effect one after the other and never deadlock; they leave the party lock released on every path that returns, an invalid message changes nothing, and rounds advance only when the round says it can proceed; a panic inside BaseUpdate keeps the lock for ever; a finished party can be started again.", "quantifier": "all parties, messages, round behaviours", "why_tests_cant": "All round implementations.", "anchors": ["tss/party.go: BaseStart, BaseUpdate, BaseParty.setRound, advance"]}
{"id": "C63", "title": "Wire messages round-trip", "statement": "ParseWireMessage of the wire bytes of a message returns the same content with the sender and broadcast flag given; empty bytes, unknown content types and numbers of more than 64 bits are rejected.", "quantifier": "all message contents and byte strings", "why_tests_cant": "All byte strings.", "anchors": ["tss/wire.go", "tss/message.go", "eddsacmp/keygen/message/messages.go", "eddsacmp/onsign/message/messages.go"]}
{"id": "C64", "title": "Committee membership", "statement": "ReSharingParameters.IsOldCommittee/IsNewCommittee hold iff the party's key is in the respective id list; counts are as configured; OldAndNewParties lists the old then the new ids, but writes them into the old list's array when that has room.", "quantifier": "all committees", "why_tests_cant": "All lists.", "anchors": ["tss/params.go"]}
{"id": "C65", "title": "alice helper functions are exact", "statement": "RandomAbsoluteRangeInt(n) returns exactly the values 1-n..n+1 (not -n..n as documented); Xor is commutative, self-inverse and has the longer length; BytesToBits/BitsToBytes round-trip; Lcm and EulerFunction are right; InRange is exact; FastMod3 is mod 3.", "quantifier": "all inputs", "why_tests_cant": "Universal.", "anchors": ["crypto/alice/utils/utils.go", "crypto/alice/utils/prime.go"]}
{"id": "C66", "title": "The safe-prime sieve and Pocklington check are sound", "statement": "checkSafePrimes-style sieving rejects only candidates with a small factor in m or 2m+1, and for an odd prime q, 2^(2q)=1 mod 2q+1 implies 2q+1 is prime. GenerateRandomSafePrime returns primes of exactly the size asked for with the two top bits set, so the product of two has exactly twice as many bits; sizes 3 to 10 never return.", "quantifier": "all candidates", "why_tests_cant": "Number-theoretic theorem.", "anchors": ["crypto/alice/utils/prime.go", "common/safe_prime.go: isPocklingtonCriterionSatisfied"]}
{"id": "C67", "title": "The curve used is really a group of prime order", "statement": "The Ed25519 addition formulas used by the library form a commutative group on the points satisfying the curve equation, the field modulus and the subgroup order are prime, and the base point has that order.", "quantifier": "all points of the curve", "why_tests_cant": "Universal algebraic law and primality.", "anchors": ["tss/curve.go: Edwards", "crypto/ecpoint.go"]}
{"id": "C68", "title": "Public wrapper functions are faithful", "statement": "Each exported function of the top package forwards its arguments unchanged to the corresponding keygen/signing function and copies every field of the result.", "quantifier": "all arguments and states", "why_tests_cant": "All arguments.", "anchors": ["eddsa.go"]}
{"id": "C69", "title": "Round bookkeeping is exact", "statement": "A round can proceed iff it has been started and every party has been marked; WaitingFor lists, in order, exactly the ids of the parties not yet marked; a started round waits for nobody iff it can proceed; resetting makes it wait for everybody.", "quantifier": "all rounds, id lists and mark vectors", "why_tests_cant": "Lists of any length and any marking history.", "anchors": ["eddsacmp/keygen/rounds.go: CanProceed, WaitingFor, resetOK", "eddsacmp/onsign/rounds.go: CanProceed, WaitingFor, resetOK"]}
{"id": "C70", "title": "One derivation step is BIP32's child key derivation", "statement": "A non-hardened step hashes serP(point) and ser32(index) under the chain code, splits the HMAC into tweak and chain code, moves both points by tweak*G and adds the tweak to the private key, with depth, child number and fingerprint as in BIP32; the Ed25519 variant reduces the tweak modulo the order instead of refusing it, and succeeds iff index < 2^31, depth < 255 and the tweak is not 0; hardened steps hash the key buffer as stored, so they follow BIP32 exactly when that buffer has 32 octets, which fails after a child key below 2^248.", "quantifier": "all keys, indices, chain codes, and all hash functions", "why_tests_cant": "Universal over keys and hash outputs; the deviation happens for one key in 256.", "anchors": ["crypto/ckd/child_key_derivation_eddsa.go: DeriveChildKeyD", "crypto/ckd/child_key_derivation.go: DeriveChildKey, serializeCompressed"]}
{"id": "C71", "title": "Ring parameters and random primes", "statement": "GenerateNTildei returns the product of its two arguments and two invertible squares modulo it; nil or composite arguments are refused before any randomness is read. GetRandomPrimeInt(bits) returns a number that crypto/rand.Prime drew or that passed the library's own test, nil for bits <= 0, and never returns for bits = 1.", "quantifier": "all arguments and all random tapes", "why_tests_cant": "The tape is unbounded randomness; the hang needs every tape.", "anchors": ["crypto/utils.go: GenerateNTildei", "common/random.go: GetRandomPrimeInt, GetRandomGeneratorOfTheQuadraticResidue"]}
{"id": "C72", "title": "secp256k1 field arithmetic in 26-bit limbs is exact", "statement": "Whatever sequence of the library's field operations (set, add, add small, multiply, multiply small, square, negate, invert, square root, normalize) is applied within the documented magnitude bounds, normalizing and serializing gives the 32-byte big-endian residue modulo 2^256-2^32-977; equality, zero and parity tests decide the residues; the square root of a square is a root.", "quantifier": "all expressions over the field operations and all 32-byte inputs", "why_tests_cant": "2^256 inputs per operand; carries that wrap a word are reached by a vanishing fraction of them.", "anchors": ["package/github.com/btcsuite/btcd/btcec/v1/field.go: fieldVal, Normalize, Mul2, SquareVal, Inverse, SqrtVal, NegateVal"]}
{"id": "C73", "title": "The secp256k1 curve operations are the group law", "statement": "IsOnCurve decides the curve equation on reduced coordinates, and Add and Double return the sum in the group of y^2 = x^3+7 for every pair of points: equal, opposite and infinite ones included. IsOnCurve ignores signs and every byte after the 32nd, so it also accepts oversize coordinates.", "quantifier": "all pairs of points of the curve, all integers for IsOnCurve", "why_tests_cant": "The exceptional cases of the Jacobian formulas have negligible probability under random tests.", "anchors": ["package/github.com/btcsuite/btcd/btcec/v1/btcec.go: IsOnCurve, Add, Double, addJacobian, doubleJacobian, fieldJacobianToBigAffine", "tss/curve.go: S256"]}
{"id": "C74", "title": "secp256k1 scalar multiplication and group order", "statement": "ScalarMult multiplies every point by the big-endian value of the byte string, whatever its length; ScalarBaseMult does so for the base point with the published coordinates; the group has prime order N, the published one. So crypto.ScalarBaseMult on S256 returns nil exactly for multiples of N, and crypto Add fails exactly for opposite points.", "quantifier": "all points and all byte strings", "why_tests_cant": "Endomorphism split, NAF digits and an 8192-entry precomputed table: an error in one entry or one carry is invisible to samples.", "anchors": ["package/github.com/btcsuite/btcd/btcec/v1/btcec.go: ScalarMult, ScalarBaseMult, splitK, NAF, moduloReduce", "package/github.com/btcsuite/btcd/btcec/v1/secp256k1.go: secp256k1BytePoints", "crypto/ecpoint.go: ScalarBaseMult, Add"]}
{"id": "C75", "title": "secp256k1 public keys as byte strings", "statement": "ParsePubKey accepts exactly: 33 bytes 2 or 3 followed by X, returning the Y of that parity on the curve; 65 bytes 4 or 5 followed by reduced X, Y on the curve; 65 bytes 6 or 7 whose last bit is the parity of Y. Each of the three serializations of any point other than infinity parses back to it, and an accepted string is one of those serializations of the parsed key (or the uncompressed one with first byte 5). The 33-byte form also accepts X >= P and keeps it unreduced.", "quantifier": "all byte strings and all points", "why_tests_cant": "2^256 coordinates; square roots, parities and unreduced coordinates.", "anchors": ["package/github.com/btcsuite/btcd/btcec/v1/pubkey.go: ParsePubKey, decompressPoint, SerializeCompressed, SerializeUncompressed, SerializeHybrid", "crypto/ckd/child_key_derivation.go: NewExtendedKeyFromString"]}
{"id": "C76", "title": "Save data survives storage", "statement": "The JSON text that key generation returns, read back by signing's Unmarshal, is the same record: private share, share id, chain codes, party keys, every public share, the group key and the Paillier and ring-Pedersen moduli; so two different records never have the same text. No proper prefix of that text and no extension of it by anything but white space is accepted, white space changes nothing, and a record that is accepted has every point on the curve it names. Deviation: the curve named may be secp256k1. A client that parses the returned signature record finds the signature, R, s and message bytes under their names.", "quantifier": "all save records, all truncations and extensions of their text", "why_tests_cant": "Records have any number of parties and integers of any size; every cut point of every text has to be refused.", "anchors": ["eddsacmp/keygen/round_4.go: json.Marshal(party.save)", "eddsacmp/onsign/local_party.go: json.Unmarshal(keyData)", "eddsacmp/keygen/save_data.go: LocalPartySaveData", "crypto/ecpoint.go: MarshalJSON, UnmarshalJSON", "eddsacmp/onsign/round_final.go: json.Marshal(SignatureData)"]}
{"id": "C77", "title": "From key generation to signature", "statement": "If key generation has finished in every party, its returned texts are stored and a signing session of all parties is created from them, then every call of that session succeeds in every interleaving, every interleaving can be completed, and all signers return the same text - also if parties lost their state and came back, any number of times, in either protocol (as in C116 and C118): a record whose 64-byte signature verifies (RFC 8032) on the message without its leading zero bytes under a key that anyone can compute from the public part of any one stored text (public shares, chain codes, group key) and the derivation path.", "quantifier": "all numbers of parties, all interleavings of both protocols and losses of state in them, all messages, paths, chain codes and draws that meet the stated non-degeneracy conditions, all hash functions", "why_tests_cant": "Two four-round protocols, JSON, base64 and key derivation composed; unboundedly many interleavings and parties.", "anchors": ["eddsa.go: whole API", "eddsacmp/keygen/round_4.go", "eddsacmp/onsign/local_party.go: NewLocalParty", "eddsacmp/onsign/round_final.go", "crypto/ckd/child_key_derivation_eddsa.go: DeriveEddsaChildPubKey"]}
{"id": "C78", "title": "A signing nonce and how often it answers", "statement": "A party's third-round message is s = c*x + k modulo the order, with c the RFC 8032 challenge of the sum of the nonce points, x its share and k the nonce of its last first round. Only creating, removing or re-running round 1 changes k; while the stored round-2 messages are unchanged, repeating round 3 gives the same bytes. But round 3 can be repeated after other round-2 messages have been accepted: then it answers another challenge with the same nonce, and anyone who sees the two answers computes the share. For every honest run and every second set of honest peer draws there is such a sequence of successful calls on one party alone.", "quantifier": "all parties, numbers of parties, calls in between, interleavings, nonces and draws, all hash functions", "why_tests_cant": "A two-session attack with arbitrary calls in between; no run of a single session shows it.", "anchors": ["eddsacmp/onsign/round_1.go: OnsignRound1Exec", "eddsacmp/onsign/round_2.go: OnsignRound2Exec, OnSignRound2MsgAccept", "eddsacmp/onsign/round_3.go: OnsignRound3Exec"]}
{"id": "C79", "title": "Messages are not bound to a signing session", "statement": "What was sent to a party in one honest signing session - for any message, path or registration keys - is accepted in any other session whose Paillier data are the same: after its first round the party accepts the recorded round-1 messages of all peers, its second round succeeds, it accepts the recorded round-2 messages, and its third round answers for the new session's message with the old nonce points of its peers.", "quantifier": "all pairs of honest sessions, all numbers of parties, all interleavings of both, all hash functions", "why_tests_cant": "Needs two arbitrary sessions and every cut point in both; a test shows one replay.", "anchors": ["eddsacmp/onsign/local_party.go: ssid constant", "eddsacmp/onsign/round_1.go: OnSignRound1MsgAccept", "eddsacmp/onsign/round_2.go: OnsignRound2Exec, OnSignRound2MsgAccept", "eddsacmp/onsign/round_3.go: OnsignRound3Exec"]}
{"id": "C80", "title": "The group key is fixed before shares are revealed, and agreement needs consistent round-1 messages", "statement": "From the call that first returns a party's share (round 2), every way in which the party can complete ends with the same public shares of all parties and the same group key, whatever is delivered later - or a collision of the commitment hash is exhibited. Two parties that completed and were given each other's and otherwise equal round-1 messages hold the same public shares and the same group key, whatever the other parties sent in rounds 2 and 3. Without equal round-1 messages they need not: a peer that prepares two root keys makes every other party finish with either of two group keys, all calls returning Ok and nothing the honest parties send being different, because nothing in the protocol compares what the parties received.", "quantifier": "all histories of calls and deliveries after round 2, all numbers of parties, all messages of the other parties, all hash functions", "why_tests_cant": "An adversary chooses every message of rounds 2 and 3; a test tries a few.", "anchors": ["eddsacmp/keygen/round_1.go: KeygenRound1Exec", "eddsacmp/keygen/round_2.go: KeygenRound2Exec", "eddsacmp/keygen/round_3.go: KeygenRound3Exec", "eddsacmp/keygen/round_4.go: KeygenRound4Exec"]}
{"id": "C81", "title": "Whom key generation blames", "statement": "An error text of round 3 or 4 that names a party never names a peer whose client ran each round once and whose messages were delivered unchanged, whatever all other parties sent - in round 4 provided the two of them were given the same round-2 messages of all parties. Without that proviso honest parties can be blamed: a peer that sends two different contributions to the session randomness makes an honest party's round 4 fail with an error naming another honest party, all earlier calls of all honest parties having returned Ok.", "quantifier": "all histories of calls, all numbers of parties, all messages of the other parties, all hash functions", "why_tests_cant": "Needs arbitrary messages of arbitrarily many misbehaving parties.", "anchors": ["eddsacmp/keygen/round_3.go: KeygenRound3Exec", "eddsacmp/keygen/round_4.go: KeygenRound4Exec", "eddsacmp/keygen/round_2.go: KeygenRound2Exec"]}
{"id": "C82", "title": "Whom signing blames", "statement": "An error of round 2 or 3 that declares a party's message bad never names a peer whose client ran round 1 (and round 2) once and whose ciphertext and proofs were delivered unchanged, whatever all other parties sent: in round 3 always, because round 2 checks its own proofs before it hands them out; in round 2 provided the peer's mask left room for the response and the ring parameters are units, because round 1 does not check its own proofs.", "quantifier": "all histories of calls of both parties, all numbers of parties, all messages of the other parties, all draws, all hash functions", "why_tests_cant": "Needs arbitrary messages of arbitrarily many misbehaving parties in every slot.", "anchors": ["eddsacmp/onsign/round_1.go: OnSignRound1Exec", "eddsacmp/onsign/round_2.go: OnsignRound2Exec", "eddsacmp/onsign/round_3.go: OnsignRound3Exec"]}
{"id": "C83", "title": "The last signing round cannot be steered", "statement": "After the third round of a party in an honest session, whatever messages of whatever rounds it is handed, its last call returns Ok only with the one record every undisturbed signer returns. It returns it exactly if the stored shares add up to the honest sum modulo the group order, and says 'verification failed' otherwise; a single wrong share always causes that. No error of the last call declares a particular party's message bad, so the sender of a wrong share is not identified.", "quantifier": "all honest sessions and interleavings, all numbers of parties, all byte strings in all slots, any number of wrong shares", "why_tests_cant": "Every byte string can be delivered in every slot in every order.", "anchors": ["eddsacmp/onsign/round_final.go: OnsignFinalExec", "eddsacmp/onsign/round_3.go: OnSignRound3MsgAccept"]}
{"id": "C84", "title": "ECDSA on secp256k1: signing and verification", "statement": "Verify returns true exactly if r and s are in [1, N-1] and some point R other than infinity satisfies s*R = e*G + r*Q and has x-coordinate congruent to r modulo the order N, e being the number of the first 32 bytes of the digest. Sign uses as nonce the first candidate of the RFC 6979 sequence of the key and the digest that lies in [1, N-1]; what it returns has 1 <= s <= N/2 and verifies under D*G; it fails only when r or s would be 0. Deviations: Verify also accepts (r, N-s), so anyone can turn a signature into a second one; and private keys that agree modulo 2^256 use the same nonces.", "quantifier": "all keys, digests of any length, numbers r and s, all HMAC functions of 32 output bytes, any number of nonce retries", "why_tests_cant": "The claim is an equivalence over all signatures and keys; tests try vectors.", "anchors": ["package/github.com/btcsuite/btcd/btcec/v1/signature.go: Verify, signRFC6979, nonceRFC6979, hashToInt, int2octets, bits2octets", "package/github.com/btcsuite/btcd/btcec/v1/privkey.go: Sign"]}
{"id": "C85", "title": "ECDSA signatures as DER and BER strings", "statement": "ParseDERSignature accepts exactly the strings that begin with the DER encoding of a sequence of two integers in [1, N-1], of at most 255 bytes, and returns those integers; ParseSignature accepts in addition integers with the sign bit set or with superfluous zeros, read as unsigned. Neither panics on any string. Serialize writes the DER encoding of (r, min(s, N-s)), which parses back; two signatures have the same serialization exactly if they are equal up to the sign of s, and a string that parses under DER to a low s is the serialization followed by ignored bytes. Deviations: bytes after the sequence are ignored, so a signature has infinitely many accepted encodings; Serialize of a signature with high s is a different signature.", "quantifier": "all byte strings, all integers r and s, any group order", "why_tests_cant": "The accepted language is infinite; a fuzzer samples it.", "anchors": ["package/github.com/btcsuite/btcd/btcec/v1/signature.go: Serialize, parseSig, ParseSignature, ParseDERSignature, canonicalizeInt, canonicalPadding, IsEqual"]}
{"id": "C86", "title": "Recovering the key from a signature", "statement": "For r, s in [1, N-1] a key is recovered for some iteration exactly if the signature verifies under that key, each key for at most one of the four iterations. SignCompact succeeds whenever Sign does, returns 65 bytes, and RecoverCompact of them returns the signer's key and the compression flag; RecoverCompact accepts exactly the 65-byte strings whose header names the iteration of a recoverable key, never panics, and a key it returns verifies the signature. Deviation: RecoverCompact can return the point at infinity (0, 0) without an error, for every digest that is not 0 modulo the order.", "quantifier": "all signatures, digests, keys and 65-byte strings, both compression flags", "why_tests_cant": "All pairs (r, s) and all four iterations matter, including the ones with r + N below P, which no test will ever hit by chance.", "anchors": ["package/github.com/btcsuite/btcd/btcec/v1/signature.go: recoverKeyFromSignature, SignCompact, RecoverCompact"]}
{"id": "C87", "title": "Private keys as bytes, and Diffie-Hellman", "statement": "PrivKeyFromBytes takes the number of the bytes, of any size, and its public half is D*G; it is (0, 0), which is not on the curve, exactly if N divides D, and nothing reports it. Serialize and PrivKeyFromBytes are inverse to each other for D < 2^256; larger keys serialize to more than 32 bytes. GenerateSharedSecret returns the same bytes on both sides: the shortest encoding, at most 32 bytes, of the x-coordinate of ab*G, with leading zeros dropped. It is the same for the opposite key, and empty exactly if the product is the point at infinity.", "quantifier": "all byte strings, private keys and points", "why_tests_cant": "Needs the group law for all scalars and points.", "anchors": ["package/github.com/btcsuite/btcd/btcec/v1/privkey.go: PrivKeyFromBytes, Serialize", "package/github.com/btcsuite/btcd/btcec/v1/ciphering.go: GenerateSharedSecret"]}
{"id": "C88", "title": "Encryption to a public key", "statement": "Decrypt of what Encrypt wrote returns the message, for every message length, ephemeral secret, vector and private key; the ciphertext has 118 bytes more than the padded message. Decrypt accepts exactly the strings that consist of a well-formed body naming a point of the curve and the MAC of the body under the key agreed with that point; it never panics. A different string that is accepted carries the MAC of a different body - computed under the honest MAC key if it names the honest ephemeral point - so altering a ciphertext needs a forgery. Deviation: only the last byte of the padding is looked at, and 0 is allowed.", "quantifier": "all messages, strings, keys, ephemeral secrets and vectors; all hash, MAC and block functions of the right sizes whose decryption undoes encryption", "why_tests_cant": "All tamperings of all ciphertexts of all lengths.", "anchors": ["package/github.com/btcsuite/btcd/btcec/v1/ciphering.go: Encrypt, Decrypt, addPKCSPadding, removePKCSPadding"]}
{"id": "C89", "title": "Random numbers are drawn without bias", "statement": "GetRandomPositiveInt(n) gives every number of [0, n) from equally many byte strings of each length, and GetRandomPositiveRelativelyPrimeInt(n) every unit of [1, n): the number of byte strings of a given length that are used up exactly with result v does not depend on v. For a uniform reader and n of at most 5000 bits, the probabilities over all input lengths add up to exactly 1/n for every number below n, and to exactly 1/phi(n) for every unit: no modulo bias, and a draw ends with probability one. The same for the draws of the range proofs: RandomInt(n) gives each number below n with probability exactly 1/n, RandomAbsoluteRangeInt(n) each integer from 1-n to n+1 with probability exactly 1/(2n+1), and RandomCoprimeInt(n) each unit from 2 on equally often. GetRandomGeneratorOfTheQuadraticResidue(n) gives every square of a unit with probability exactly one over the number of such squares, GetRandomQuadraticNonResidue(n), for odd n, every number of Jacobi symbol -1 with probability exactly one over their number, and GetRandomBytes the next bytes of the reader as they are.", "quantifier": "all bounds n, all pairs of values, all lengths of input consumed, any number of rejected candidates", "why_tests_cant": "A statement about the exact distribution over all readers; statistics only bound it.", "anchors": ["common/random.go: GetRandomPositiveInt, GetRandomPositiveRelativelyPrimeInt, MustGetRandomInt, GetRandomGeneratorOfTheQuadraticResidue, GetRandomQuadraticNonResidue, GetRandomBytes", "crypto/alice/utils/utils.go: RandomInt, RandomAbsoluteRangeInt, RandomCoprimeInt"]}
{"id": "C90", "title": "One answer per nonce reveals only public values", "statement": "For a public share X = x*G and a challenge, the accepted proofs (commitment, response below the order) are exactly the ones the honest prover sends, each for exactly one nonce; and for each response there is exactly one accepting commitment. Proofs can therefore be made up without x with the same distribution: for every event as many nonces lead to it as made-up answers, also for the proof of a representation V = s*R + l*G. The same for a signature share: s*G = R + c*X for the party's nonce point R, challenge c and public share X, and each such s is the answer for exactly one nonce.", "quantifier": "all secrets, nonces, challenges, responses and points in the subgroup of the base point; all curves with a base point of order N, and Ed25519", "why_tests_cant": "A statement about the set of all transcripts.", "anchors": ["crypto/schnorr/schnorr_proof.go: Prove, Verify", "eddsacmp/onsign/round_3.go: OnsignRound3Exec"]}
{"id": "C91", "title": "Every party's contribution decides", "statement": "In key generation, fix what the other parties contribute. For every 32-byte target exactly one contribution of a given party makes the common randomness the target, and for every point t*G exactly one residue of its root key makes the group key that point - in every run, at every party. So as long as one party draws uniformly, the outcome is uniform.", "quantifier": "all sessions of any number of parties, all contributions, all targets, all interleavings", "why_tests_cant": "Quantifies over all contributions of all other parties and all interleavings.", "anchors": ["eddsacmp/keygen/round_3.go: KeygenRound3Exec", "eddsacmp/keygen/round_4.go: KeygenRound4Exec"]}
{"id": "C92", "title": "A signature is determined by its first half", "statement": "For a key, a message and a first half R there is at most one signature whose second half is below the group order, so two signers that release records with the same R for the same message and group key release the same text. For every hash, key, message and nonce there is one. Two verifying signatures with the same R and different challenges reveal the private key: (s-s')/(c-c'). Deviation: the verification equation alone does not fix the second half; adding the group order gives another string that verifies.", "quantifier": "all keys, messages and signature strings, all SHA-512 functions, all histories of the two signing processes", "why_tests_cant": "Uniqueness is a statement about all 64-byte strings; it needs the order of the base point.", "anchors": ["eddsacmp/onsign/round_final.go: OnsignFinalExec", "eddsacmp/onsign/utils.go"]}
{"id": "C93", "title": "Which messages are complete", "statement": "A message passes ValidateBasic exactly if none of its required fields is empty; BaseParty.ValidateMessage accepts a message read from the wire exactly if in addition the stated sender has a key and an index. What an honest party sends is complete unless a number it sends is 0 or a point it sends is the neutral element, that is, unless its share or nonce is a multiple of the group order. The wire carries the content only: the sender and the broadcast flag of a received message are what the receiving caller states. Deviation: the accept calls of key generation and signing never ask; they accept a message with no field at all from every party in every round.", "quantifier": "all messages, byte strings, senders, shares and nonces; all reachable states of the two registries", "why_tests_cant": "All field contents and all states of the registries.", "anchors": ["eddsacmp/keygen/message/messages.go: ValidateBasic, NewKGRound1Message, NewKGRound2Message, NewKGRound3Message", "eddsacmp/onsign/message/messages.go: ValidateBasic, NewSignRound1Message1, NewSignRound1Message2, NewSignRound2Message, NewSignRound3Message", "tss/message.go: NewMessage, NewMessageWrapper, WireBytes", "tss/party.go: ValidateMessage", "tss/wire.go: ParseWireMessage"]}
{"id": "C94", "title": "Schnorr verification is BIP 340's", "statement": "A byte string parses as a signature exactly if it is the 64-byte serialization of the signature returned (r below the field prime, s below the group order), so encodings are unique. Verify accepts exactly the signatures valid in BIP 340 for the x-only form of the key, on 32-byte messages whose challenge hash is below the group order; a key and its opposite verify the same signatures, no signature verifies under the point at infinity, and s is determined by r, the key and the message. Deviation: BIP 340 reduces a challenge at or above the order, and signatures valid there are rejected here.", "quantifier": "all byte strings, signatures, messages and keys; all tagged hashes", "why_tests_cant": "A statement about all 64-byte strings; the deviating challenges have probability 2^-128 and no test reaches them.", "anchors": ["package/github.com/btcsuite/btcd/btcec/v2/schnorr/signature.go: ParseSignature, Serialize, Verify, schnorrVerify", "package/github.com/btcsuite/btcd/btcec/v2/schnorr/pubkey.go: ParsePubKey, SerializePubKey"]}
{"id": "C95", "title": "Schnorr signing", "statement": "A signature returned by Sign verifies under the public key of the private key, whatever the message, options and nonces (with FastSign as long as RFC 6979 does not give zero). With a custom nonce Sign succeeds exactly if the message has 32 bytes, key and derived nonce are not zero and the challenge is below the order, and the result is BIP 340's default signature for that auxiliary input; without one it uses the first attempt whose challenge is below the order. Two signatures with one nonce on different challenges reveal the key. Deviation: Sign replaces the caller's private key by its opposite when the public key has odd y; later signatures are the same, but the public key derived from it is not.", "quantifier": "all keys, messages, auxiliary inputs, nonce functions and tagged hashes", "why_tests_cant": "All keys of either parity, all nonces; the retry loop is never entered in tests.", "anchors": ["package/github.com/btcsuite/btcd/btcec/v2/schnorr/signature.go: Sign, schnorrSign, FastSign, CustomNonce"]}
{"id": "C96", "title": "MuSig2 key aggregation", "statement": "AggregateKeys returns the sum of coefficient times key, where the coefficient is 1 for the second distinct key and otherwise the hash of the key list and the key; sorted aggregation does not depend on the order of the keys. Tweaks are applied in order, x-only ones to the even-y form, and succeed exactly if each is below the order and no intermediate key is infinity; the accumulators returned satisfy final = parity*aggregate + tweak*G; taproot and BIP 86 tweaks are the tagged hashes of the x-only aggregate. Deviation: an aggregate at infinity is returned as a key without an error, and makes the taproot options panic.", "quantifier": "all lists of keys, all tweaks, all tagged hashes", "why_tests_cant": "Lists of any length with repeated keys, opposite keys and any tweaks.", "anchors": ["package/github.com/btcsuite/btcd/btcec/v2/schnorr/musig2/keys.go: AggregateKeys, aggregationCoefficient, secondUniqueKeyIndex, keyHashFingerprint, tweakKey, WithKeyTweaks, WithTaprootKeyTweak, WithBIP86KeyTweak"]}
{"id": "C97", "title": "MuSig2 partial signatures and their combination", "statement": "Sign succeeds exactly if the keys aggregate, the combined nonce parses, and neither secret nonces nor key are zero; its result then verifies, and it is the only partial signature that verifies for that key, nonce and session. When every partial signature verifies and all keys have even y the combination is a valid signature under the aggregated, tweaked key, so a failed combination has a partial signature that fails by itself; an honest group always gets there unless nonces cancel, the key is infinity or the challenge is not below the order. A secret nonce used in three sessions reveals the key. Deviations: a key of odd y in the set makes all partial signatures verify and the combination fail; cancelling nonces do the same; a truncated partial signature is decoded to zero without an error; a bad tweak makes the options of CombineSigs panic.", "quantifier": "any number of signers, all keys, nonces, messages and options, all tagged hashes", "why_tests_cant": "Group sizes, parities of keys, nonces and accumulators in all combinations.", "anchors": ["package/github.com/btcsuite/btcd/btcec/v2/schnorr/musig2/sign.go: Sign, Verify, verifyPartialSig, CombineSigs, WithTweakedCombine, Encode, Decode"]}
{"id": "C98", "title": "MuSig2 nonces", "statement": "The two secret nonces are the reduced hashes of unambiguous strings made of the randomness (mixed with the secret key if given), combined key, message, auxiliary input and index; the public nonce consists of their points. Public nonces aggregate exactly if both halves of each parse, to the encodings of the two sums, independently of the order; a half is a compressed point, or anything of 33 bytes that begins with 0, which counts as infinity. The public nonce of a zero secret nonce never aggregates. Deviation: a reader that delivers fewer than 32 bytes is not noticed, the rest of the randomness is zero.", "quantifier": "all random inputs, options and lists of 66-byte strings", "why_tests_cant": "All byte strings and lists of any length; short reads do not happen in tests.", "anchors": ["package/github.com/btcsuite/btcd/btcec/v2/schnorr/musig2/nonces.go: GenNonces, genNonceAuxBytes, secNonceToPubNonce, AggregateNonces", "package/github.com/btcsuite/btcd/btcec/v2/curve.go: ParseJacobian, JacobianToByteSlice"]}
{"id": "C99", "title": "MuSig2 contexts and sessions", "statement": "In every history of calls: a session signs at most once; the early nonce goes into one session; the combined key is the aggregate of the announced number of keys, the signer's among them; the combined nonce that of the announced number of nonces; a partial signature returned verifies for the combined key; and a final signature is there only if the session signed before, and then verifies under the combined key for that message. A session driven in the intended order with partial signatures that verify ends with a final signature, and contexts with sorting agree on the key. Deviations: PublicNonce panics after Sign; one signer alone never signs; a malformed last nonce or a wrong partial signature ends the session for good; completing the signatures before Sign panics; a session that signs last never has a final signature; WithSortedKeys reorders the context's key set; a supplied nonce can be used in two sessions; the caller's own key of odd y is refused.", "quantifier": "all histories of calls on a context and its sessions, all keys, nonces, messages, options and tagged hashes", "why_tests_cant": "Quantifies over all interleavings of calls on any number of sessions.", "anchors": ["package/github.com/btcsuite/btcd/btcec/v2/schnorr/musig2/context.go: NewContext, RegisterSigner, combineSignerKeys, EarlySessionNonce, CombinedKey, NewSession, PublicNonce, RegisterPubNonce, Sign, CombineSig, FinalSig"]}
{"id": "C100", "title": "ECDSA signature parsing in btcec/v2", "statement": "ParseSignature and ParseDERSignature of v2 accept exactly the byte strings those of v1 accept for the order of the curve and return the same two numbers; they never panic; the DER form accepts exactly the DER encodings of two non-zero scalars in at most 255 bytes, followed by anything; and what v1 serializes is read back, with the lower of s and N - s.", "quantifier": "all byte strings, both strictnesses, all scalars", "why_tests_cant": "All byte strings of any length.", "anchors": ["package/github.com/btcsuite/btcd/btcec/v2/ecdsa/signature.go: parseSig, ParseSignature, ParseDERSignature, canonicalPadding", "package/github.com/btcsuite/btcd/btcec/v1/signature.go: parseSig"]}
{"id": "C101", "title": "What an error text tells", "statement": "Where no task name has a comma and no moniker a closing brace, the text of an error that has a cause determines task, round, the index and moniker of the reporting party and of every culprit in order, and the text of the cause. Errors made before the first round name no task and no party, and round -1. Deviations: keys and ids are not shown; an error without a cause has the same text as no error, whoever it blames; a party whose moniker has a closing brace in it can look like several culprits.", "quantifier": "all errors, tasks, rounds, parties, lists of culprits and causes", "why_tests_cant": "Unambiguity is a statement about all pairs of errors.", "anchors": ["tss/error.go: NewError, Error", "tss/party_id.go: String", "tss/party.go: WrapError", "eddsacmp/keygen/rounds.go: WrapError", "eddsacmp/onsign/rounds.go: WrapError"]}
{"id": "C102", "title": "Calls made at the same time", "statement": "If callers never make a call that creates or removes a party while another call of the package is in progress, and overlap calls for the same key only for deliveries of messages of different rounds or senders (in signing also fetches of messages to send), then no access to the package's map of parties coincides with a change of it, every call returns what it returns when the calls are made one after the other in the order of their returns, and the parties registered in the end are those of that history; so every property of all histories holds of such runs. Deviations: a creation that runs while any other call runs, even for another key, can coincide with its access to the map, which Go answers by stopping the process; two removals of one party at the same time can both report success.", "quantifier": "all runs: any number of calls, any interleaving of their steps, any number of steps inside a call", "why_tests_cant": "All schedules of any number of calls.", "anchors": ["eddsacmp/keygen/local_party.go: Parties, NewLocalParty, RemoveParty", "eddsacmp/onsign/local_party.go: SignParties, NewLocalParty, RemoveSignParty", "eddsa.go"]}
{"id": "C103", "title": "Restarts of the process", "statement": "If the process ends at any point, in a call or between calls, and is started again, any number of times, its state is always that of a process that has seen only the calls since the last restart, so every property of all histories also holds with restarts in between; in particular whatever the last signing call returns verifies. After a restart every session is gone and each call with its key is refused with an error text until the party is created again. What a creating call returns and the party it makes depend on its arguments only, so the text key generation returned before a restart is as good after it, and from a successful creation on a party answers the same whatever happened before, including an abandoned session under the same name.", "quantifier": "all histories of calls and restarts, all keys and arguments, all crash points", "why_tests_cant": "All crash points in all histories.", "anchors": ["eddsacmp/keygen/local_party.go: Parties, NewLocalParty", "eddsacmp/onsign/local_party.go: SignParties, NewLocalParty", "eddsacmp/onsign/round_final.go: OnsignFinalExec"]}
{"id": "C104", "title": "Trying a round again", "statement": "A signing round, or round 2 or 4 of key generation, that did not succeed can be tried again: after any number of failed tries and any messages handed in, replaced or asked for in between, the next try returns exactly what it would have returned if the failed tries had never been made, and if it succeeds all parties are what they would have been then. So a garbled message does no lasting harm: an honest signing session whose last round failed because of one gives its signature once the right message is handed in. Deviation: round 3 of key generation mixes in the contributions one by one, so if it fails at one party's message after having read another's, the second call succeeds but leaves the earlier contributions out and proves for the wrong randomness; the others then reject the honest party. With two parties the retry is harmless.", "quantifier": "all sessions, histories of failed tries and message calls, interleaved calls of other sessions, all draws", "why_tests_cant": "All histories of failures and retries, all positions of the bad message.", "anchors": ["eddsacmp/onsign/round_1.go: OnsignRound1Exec", "eddsacmp/onsign/round_2.go: OnsignRound2Exec", "eddsacmp/onsign/round_3.go: OnsignRound3Exec", "eddsacmp/onsign/round_final.go: OnsignFinalExec", "eddsacmp/keygen/round_2.go: KeygenRound2Exec", "eddsacmp/keygen/round_3.go: KeygenRound3Exec", "eddsacmp/keygen/round_4.go: KeygenRound4Exec"]}
{"id": "C105", "title": "What a reader of a JSON result gets", "statement": "ToJson of every result is valid JSON in UTF-8: a standard JSON reader gets an object with ok, error and (for results with data) data; ok and data are exactly those of the result, data null or standard base64, and error is the error text as a reader of UTF-8 sees its bytes. The error string follows RFC 8259 and holds no control characters, no <, > or & and no U+2028/U+2029. Two results with the same JSON text have the same flag and data and error texts that read the same; with error texts in UTF-8 they are equal. Deviation: error texts quote the caller's key, and keys that are not UTF-8 can give different results with the same JSON text.", "quantifier": "all results, all byte strings as error texts, all data", "why_tests_cant": "All byte strings, valid UTF-8 or not.", "anchors": ["eddsa.go: MpcExecResult.ToJson, MpcResult.ToJson"]}
{"id": "C106", "title": "What an accepted range proof says about the plaintext", "statement": "For a ciphertext that decrypts to m under the owner's key (two distinct primes, modulus prime to the totient): an accepted encryption-range proof contains an integer z1 within the range bound with z1 = a + e*m modulo the modulus, e the challenge and a what the first message decrypts to; an accepted log proof in addition has z1*G = Y + e*X with the same z1. So two accepted answers to different challenges for one first message show that m is a fraction u/d with |d| <= 2q and |u| within twice the bound, and d*X = u*G; a ciphertext whose plaintext is no such fraction (all but at most (4q+1)(4*bound+1)) passes for at most one challenge per first message, whatever the prover does; and for moduli of 2048 bits the fraction is unique, so the proofs of both rounds speak of the same number. This is what a successful round 2 and round 3 guarantee for every peer. Deviation: the encryption-range verifier accepts ciphertexts that are divisible by the modulus (such as the empty one), which decrypt to nothing; the log verifier does not.", "quantifier": "all keys, ciphertexts, messages, ring-Pedersen parameters, hash functions and challenges; all reachable states for the rounds", "why_tests_cant": "Quantifies over every prover strategy: all messages a peer could send.", "anchors": ["crypto/encproof/proof.go: Verify", "crypto/logproof/proof.go: Verify", "crypto/alice/paillier/paillier.go: Decrypt", "eddsacmp/onsign/round_2.go: OnsignRound2Exec", "eddsacmp/onsign/round_3.go: OnsignRound3Exec"]}
{"id": "C107", "title": "Range proofs hide the plaintext", "statement": "For each challenge e, what a signer sends in an encryption-range or log proof is within statistical distance |e*k|/(2a+1) + N/(2b+1) + 1/(phi(n)-1) + |e|(b+1)/(2c+1) of what somebody could send who knows the public values only, where k is the secret plaintext, a, b, c the sizes of the masks drawn, N the receiver's ring-Pedersen modulus with s a power of t, and n the signer's Paillier modulus; with the parameters of the code on edwards25519 that is 2^-250 + 1/(phi(n)-1). The messages the code builds are exactly these for its draws and for the challenge the verifier derives. The condition on s and t, which the ring-Pedersen proof of key generation is there for, is needed: with t = 1 the message tells k modulo the order of s.", "quantifier": "all secrets, challenges, moduli, parameters and all events (sets of messages)", "why_tests_cant": "A statement about the distribution of messages over all draws, for every set of messages.", "anchors": ["crypto/encproof/proof.go: NewEncryptRangeMessage", "crypto/logproof/proof.go: NewKnowExponentAndPaillierEncryption", "crypto/config.go: NewProofConfig", "crypto/alice/utils/utils.go: RandomAbsoluteRangeInt, RandomCoprimeInt"]}
{"id": "C108", "title": "Ring-Pedersen and discrete-logarithm proofs hide the exponent", "statement": "For every hash function, salt, session and number of rounds, and every set of transcripts, exactly as many draws of an honest ring-Pedersen prover lead to a transcript in the set as there are right guesses (of a response and a challenge bit for each round) whose transcript, made up from n, s and t alone, is in the set; exactly half of the guesses for a round are right. So the proof tells nothing about the exponent that n, s and t do not tell. For each string of challenge bits the same holds of the rounds of a discrete-logarithm proof, and what is made up is accepted by the verifier's equation. The messages the code builds consist of exactly these rounds, for its draws.", "quantifier": "all moduli, generators, exponents, hash functions, numbers of rounds and sets of transcripts", "why_tests_cant": "A statement about the distribution of transcripts over all draws.", "anchors": ["crypto/alice/zkproof/paillier/ring_pedersenzkproof.go: NewRingPederssenParameterMessage", "crypto/dlnproof/proof.go: NewDLNProof"]}
{"id": "C109", "title": "Proofs of a good modulus hide its factors", "statement": "Paillier-Blum proof (modproof): for a product N of two primes that are 3 modulo 4, prime to the totient, for every number of iterations and every set of transcripts, exactly as many choices of w and of challenges (units) lead the honest prover to a transcript in the set as there are choices of a number of Jacobi symbol -1, of squares and of pairs of bits from which anybody who knows N only makes up a transcript in the set; what is made up satisfies the verifier's equations. Factorization proof: for each challenge e, what the prover sends is within statistical distance (N - phi(N))*e/(N - 2), for two 1024-bit primes at most 2^-940, of what somebody sends who knows N only. The messages the code builds are these, for its draws and challenges.", "quantifier": "all moduli of the kind, numbers of iterations, challenges and sets of transcripts", "why_tests_cant": "A statement about the distribution of transcripts over all draws.", "anchors": ["crypto/modproof/proof.go: NewProof", "common/random.go: GetRandomQuadraticNonResidue", "crypto/alice/zkproof/integerfactorization.go: NewIntegerFactorizationProofMessage"]}
{"id": "C110", "title": "The receiver reads what the sender put in", "statement": "For each message of key generation and signing, created by the constructor and sent over the wire, the functions that read its fields give back what was put in: the points (if they are on the curve and their coordinates are not negative), the session and commitment strings, the numbers (if not negative), and every range proof that the code created. Whatever bytes a message carries, a point that is read from it is on the curve, and bytes that are not a protobuf message are refused as a proof. Ring-Pedersen proofs, proofs of a good modulus with positive parts, and Paillier public keys with their factorization proof are read back unchanged from their bytes, so that the reader of a public key comes to the same key or the same refusal as its owner. Deviations: a negative number loses its sign; key generation messages, as they are sent, carry no Paillier or ring-Pedersen numbers and no proofs about them, and most of the readers of these answer 0 or an empty proof without an error.", "quantifier": "all parties, points, numbers, proofs and message bytes", "why_tests_cant": "Every message and every proof that can be created or received.", "anchors": ["eddsacmp/keygen/message/messages.go: UnmarshalPaillierPK, UnmarshalPedersenPK, UnmarshalPubXj, UnmarshalPayload, UnmarshalSchProof, UnmarshalModProof, UnmarshalPrmProof", "eddsacmp/onsign/message/messages.go: UnmarshalK, UnmarshalEncProof, UnmarshalR, UnmarshalLogProof, UnmarshalS", "crypto/alice/paillier/paillier.go: ToPubKeyBytes", "crypto/alice/paillier/message.go: ToPubkey"]}
{"id": "C111", "title": "A group signature is an ordinary signature", "statement": "What every finishing signer of an honest signing session returns holds exactly the Ed25519 signature (RFC 8032) that one signer would make who held the whole secret of the child key and used the sum of the signers' nonces; so it depends on the secret, the sum of nonces and the message alone, and two honest sessions - with other signers, another number of signers, other shares, schedules and draws - whose secrets and nonce sums agree modulo the group order release the same text. Each signer's nonce alone decides the first half: for fixed nonces of the others, each R comes from exactly one residue of it.", "quantifier": "all honest sessions, numbers of signers, shares, nonces, draws, schedules and hash functions", "why_tests_cant": "Every session, sharing and schedule.", "anchors": ["eddsacmp/onsign/round_2.go: OnsignRound2Exec", "eddsacmp/onsign/round_3.go: OnsignRound3Exec", "eddsacmp/onsign/round_final.go: OnsignFinalExec"]}
{"id": "C112", "title": "A signer's key share is used only at creation and in round 3", "statement": "Whatever is called - any exported signing calls, of any parties, in any order, with any arguments and draws - as long as a party does not run round 3, all answers, to every caller, are the same as if it held any other share of the key, and the state left behind differs in the share only. Two creation calls answered Ok whose key data differ in the share only leave behind parties that differ in the share only. In round 3, two such parties hash the same R and answer c x + k and c x' + k modulo the group order with the same challenge c. So a session that is abandoned before round 3 tells nobody anything about the share.", "quantifier": "all histories of calls, arguments, draws, shares and registries", "why_tests_cant": "A comparison of all pairs of histories (noninterference).", "anchors": ["eddsacmp/onsign/local_party.go: NewLocalParty", "eddsacmp/onsign/round_1.go: OnSignRound1Exec", "eddsacmp/onsign/round_2.go: OnsignRound2Exec", "eddsacmp/onsign/round_3.go: OnsignRound3Exec", "eddsacmp/onsign/round_final.go: OnsignFinalExec"]}
{"id": "C113", "title": "Only the residue of a root key matters, if it fits in 32 bytes", "statement": "If in any history of key-generation calls the root key given to a party is replaced by another that is congruent to it modulo the group order, every answer to every caller stays the same, the messages of all rounds included, except that the save data returned by this party differ in the private share, and there by a multiple of the order only. A signing party created from either record (both shares below 2^256, path without hardened components) is the very same party, so everything that is signed afterwards is the same too; with a hardened component none is created. Deviation: a root key that does not fit in 32 bytes passes key generation, every call answered Ok and the joint key including it, but every creation of a signing party from the save data crashes: the group key can never sign.", "quantifier": "all histories of calls, root keys, draws, key data, paths and honest sessions", "why_tests_cant": "A comparison of all pairs of histories, and a failure that shows only after key generation has succeeded.", "anchors": ["eddsacmp/keygen/local_party.go: NewLocalParty", "eddsacmp/keygen/round_1.go: KeygenRound1Exec", "eddsacmp/keygen/round_3.go: KeygenRound3Exec", "eddsacmp/keygen/round_4.go: KeygenRound4Exec", "eddsacmp/onsign/local_party.go: NewLocalParty", "crypto/ckd/child_key_derivation_eddsa.go: DeriveEddsaChildPrivKey"]}
{"id": "C114", "title": "The parties of key generation can only sign together", "statement": "Suppose only some parties of a key generation take part in signing, honestly. If they are the first ones in index order, every call of every one of them up to round 3 succeeds whatever the schedule, and all of them come to their last call, but that fails with the signature error, in every run and for every signer, unless the challenge times the sum of the absent derived shares is 0 modulo the group order; no signature is ever released. So fewer parties than took part in key generation never sign. If one of them is not among the first, creating the party already never succeeds: with data that are in order the call does not return an error but crashes, and the sessions stay as they were.", "quantifier": "all key-generation results, numbers of parties and signers, shares, nonces, draws and schedules", "why_tests_cant": "Every subset of signers, schedule and key.", "anchors": ["eddsacmp/onsign/local_party.go: NewLocalParty", "eddsacmp/keygen/save_data.go: BuildLocalSaveDataSubset", "eddsacmp/onsign/round_1.go: OnSignRound1Exec", "eddsacmp/onsign/round_final.go: OnsignFinalExec"]}
{"id": "C115", "title": "Signers that were not asked for the same thing release nothing", "statement": "Let each signer be honest in a session of its own idea, where these ideas may differ in the message, the path, the key data and the key, but agree in who signs and in the Paillier and ring-Pedersen numbers. Whatever the schedule, every call up to round 3 succeeds for every signer and all of them come to their last call; that succeeds for a signer exactly if the answers of all fit what it signs: the sum of challenge times share over the signers, each with its own challenge and share, is its own challenge times the secret of its own key, modulo the group order. Otherwise it fails with the signature error and nothing is released, in every run. If all parties sign, and one is asked for another message than the rest, the answers fit another signer exactly if the two messages have the same challenge or the odd one's share is 0, and fit the odd one exactly if the challenges are the same or the shares of the rest add up to 0; if none of these holds, no signer gets a signature on either message.", "quantifier": "all sessions, divisions of the signers, messages, paths, keys, nonces, draws, schedules and hash functions", "why_tests_cant": "Every division of the signers and every schedule.", "anchors": ["eddsacmp/onsign/local_party.go: NewLocalParty", "eddsacmp/onsign/round_1.go: OnSignRound1Exec", "eddsacmp/onsign/round_2.go: OnsignRound2Exec", "eddsacmp/onsign/round_3.go: OnsignRound3Exec", "eddsacmp/onsign/round_final.go: OnsignFinalExec"]}
{"id": "C116", "title": "Signers that lose their state can come back, but not for free after round 3", "statement": "Suppose that in an honest signing session some signers lose their state (a crash, a restart, a removal, a new party under their key), any number of times, before anybody has made its last call. If the lost ones are created again and draw anew, and the others keep their parties, accept the new round-1 messages and run round 2 again, then whatever the schedule every call succeeds, from every state all signers can finish, and all that finish return one record with a valid signature of the message under the group key. Before the last call there is no result that could be lost. A signer that is lost after all have run round 3 is not needed: the messages that were sent are enough for each of the others. The price: if a signer that keeps its state had already run round 3, it answers a second time with the same nonce, and the two answers, sent to everybody, determine its share (unless the challenges are equal).", "quantifier": "all sessions, sets of lost signers, moments of loss, draws, schedules and registries", "why_tests_cant": "Every crash point and every history of losses.", "anchors": ["eddsacmp/onsign/local_party.go: NewLocalParty", "eddsacmp/onsign/round_1.go: OnSignRound1Exec, OnSignRound1MsgAccept", "eddsacmp/onsign/round_2.go: OnsignRound2Exec, OnSignRound2MsgAccept", "eddsacmp/onsign/round_3.go: OnsignRound3Exec", "eddsacmp/onsign/round_final.go: OnsignFinalExec"]}
{"id": "C117", "title": "Asking a party for round 3 of key generation twice gives its root key away", "statement": "Whatever was handed in before, between and by whom: if round 3 of key generation returned Ok twice for a party that did not go back to round 1 in between, the two answers determine the party's root key modulo the group order, unless their challenges, which are computed from published data, are equal. It needs no attacker for the second answer: in an honest run a party that is simply asked again for round 3, at any later time and with nothing changed - say because the first answer was lost on the way - answers for another session randomness, and the round-2 messages and the two answers give the root key to whoever sees them. A third call gives the first answer again and restores the party. Rounds 2 and 4 may be repeated: the call returns the same again and changes nothing.", "quantifier": "all party states and histories of calls; all honest sessions, schedules, moments of the second call, hash functions and curves of prime order", "why_tests_cant": "Every history between the two calls, every session and every schedule.", "anchors": ["eddsacmp/keygen/round_3.go: KeygenRound3Exec", "eddsacmp/keygen/round_1.go: KeygenRound1Exec", "eddsacmp/keygen/round_2.go: KeygenRound2Exec", "eddsacmp/keygen/round_4.go: KeygenRound4Exec", "crypto/schnorr/schnorr_proof.go: Prove"]}
{"id": "C118", "title": "Key generation parties that lose their state can come back, within limits", "statement": "Suppose that in an honest key generation some parties lose their state, any number of times, before anybody has made its last call. If the lost ones are created again (even with another root key), those that have run round 3 start again with round 1, and the rest keep their round 1, then whatever the schedule every call succeeds, from every state all can finish, and all that finish hold the same public key, which belongs to the root keys in use. Before the last call there is no result that could be lost. A party that has run round 3 must not merely repeat round 2: the call succeeds, but its message no longer fits its commitment, and everybody who gets it fails in round 3 and names that honest party. And the commitments no longer bind across a loss: a party that claims a loss after it has seen the round-2 messages of the others can choose the common randomness, without any error anywhere.", "quantifier": "all sessions, sets of lost parties, moments of loss, root keys, draws, schedules, registries, hash functions and lawful curves", "why_tests_cant": "Every crash point and every history of losses.", "anchors": ["eddsacmp/keygen/local_party.go: NewLocalParty", "eddsacmp/keygen/round_1.go: KeygenRound1Exec", "eddsacmp/keygen/round_2.go: KeygenRound2Exec", "eddsacmp/keygen/round_3.go: KeygenRound3Exec", "eddsacmp/keygen/round_4.go: KeygenRound4Exec"]}
{"id": "C119", "title": "When a signer releases a signature among arbitrary peers", "statement": "Let a signer have run its third round, in any state it can be in by then, and be handed any messages afterwards. With the numbers behind the nonce points and the public shares of its peers, and the challenge it answered, its last call releases a signature exactly if the values of the shares it was handed add up, modulo the group order, to the sum of nonce plus challenge times share of the peers; otherwise it fails with the signature error. So when another signer answered another challenge - because the peers told the two different nonces, or asked them for different messages or keys - and the first one still releases a signature with this answer, then the remaining signers, from their own nonces, shares and answers, can compute the share of that other signer. With two signers this cannot happen at all: a signature is released only if both answered the same challenge, or the other's share is 0.", "quantifier": "all states before round 3, histories of later calls, messages of the peers, numbers of signers, keys, nonces, draws and hash functions", "why_tests_cant": "Every coalition of peers and everything they may send.", "anchors": ["eddsacmp/onsign/round_3.go: OnsignRound3Exec", "eddsacmp/onsign/round_final.go: OnsignFinalExec", "eddsacmp/onsign/round_2.go: OnSignRound2MsgAccept"]}
{"id": "C120", "title": "One derived share gives the root share and the shares of all paths", "statement": "What a path adds to a share of the Ed25519 key does not depend on the share: it is a sum of HMAC values computed from the group key, the party's chain code and the numbers in the path, all known to every party. So one derived share gives the stored share modulo the group order, and with it the derived share on every other path. In particular a signer that answers its third round twice, on one path, gives away its share on all of them: from the two answers, which all peers see, follow the stored share modulo the group order, the share of every signer ever created from the same key data on any path and for any message, and key data from which exactly the same signers are created. Hardened components, which would prevent this, are refused for signing. For secp256k1 keys the same holds of the keys derived along paths without hardened components: one of them, with the public key and the chain code, gives the root key modulo the group order and all others.", "quantifier": "all shares, keys, chain codes, paths, HMAC functions, party states and histories of calls", "why_tests_cant": "Every path, every key and every history.", "anchors": ["crypto/ckd/child_key_derivation_eddsa.go: DeriveEddsaChildPrivKey, DeriveChildKeyD", "crypto/ckd/child_key_derivation.go: DerivePrivateKeyForPath, DeriveChildKey", "eddsacmp/onsign/local_party.go: NewLocalParty", "eddsacmp/onsign/round_3.go: OnsignRound3Exec"]}
{"id": "C121", "title": "Across a whole session one answer tells nothing beyond the public share", "statement": "Let a party of key generation run round 1 and later, after any calls except a new start, round 3 with success. Its nonce point is tau*G and its answer tau + c*x modulo the group order, x being its root key and c the challenge; and for this challenge, for every set of pairs of a point and a number, exactly as many nonces below the group order give a pair (nonce point, answer) in the set as there are numbers z for which the pair (z*G - c*X, z), made up from the public share X alone, is in the set. Every made-up pair passes the check of the peers. The same holds for the answer of a signer in its third round and the nonce point it sent in round 2. The same holds of any number of sessions of one stored share together, on any paths, each with its own nonce, when the challenges and paths are chosen by somebody who knows all points and answers of the sessions before. As the nonces are drawn evenly (C89), someone who sees one answer for each nonce learns nothing about the secret that the public share does not tell; two answers with one nonce give it away (C78, C117). What the range proofs and ciphertexts tell is a matter of C107-C109.", "quantifier": "all root keys, shares, nonces, challenges, hash functions, lawful curves (key generation), states, messages at hand, histories of calls, and sets of pairs", "why_tests_cant": "A statement about the number of nonces behind every possible view.", "anchors": ["eddsacmp/keygen/round_1.go: KeygenRound1Exec", "eddsacmp/keygen/round_3.go: KeygenRound3Exec", "crypto/schnorr/schnorr_proof.go: Prove, Verify", "eddsacmp/onsign/round_1.go: OnSignRound1Exec", "eddsacmp/onsign/round_2.go: OnsignRound2Exec", "eddsacmp/onsign/round_3.go: OnsignRound3Exec"]}
{"id": "C122", "title": "What the proof about a Paillier modulus proves", "statement": "Let N have no prime factor up to 1000 (Verify refuses all others). If N shares no factor with phi(N), N is square-free, every challenge has exactly one answer, and a proof that Verify accepts exists whenever the challenges are found. If N shares a factor with phi(N), at most one in 1009^13 of the vectors of 13 challenges can be answered at all, whatever the prover computes. A proof that Verify accepts exists exactly if N has no small factor and the challenges, which are 13 units, can all be answered. So a prover with a bad modulus has to find inputs of the hash with one of these rare challenges.", "quantifier": "all moduli, inputs, hash functions, proofs and schedules of the verifier", "why_tests_cant": "A statement about all moduli and about the number of challenges that no prover can answer.", "anchors": ["crypto/paillier/paillier.go: Proof, Verify, GenerateXs"]}
{"id": "C123", "title": "Registered curves", "statement": "After every history of RegisterCurve and SetCurve calls GetCurveByName(n) gives the curve registered last under n (at the start secp256k1 and ed25519), EC the curve set last (secp256k1 at the start); SetCurve(nil) panics and changes nothing. Whatever order the map is iterated in, GetCurveName finds a name exactly if some name gives a curve of the same Go type, and the answered name gives such a curve; with only the two curves of the start each has its own name. Deviation: two different curves of one Go type cannot be told apart, either name can be the answer, so a point written as JSON can be read back as a point of the other curve, or be refused.", "quantifier": "all histories of calls, names, curves and iteration orders", "why_tests_cant": "All histories and all orders of map iteration.", "anchors": ["tss/curve.go: RegisterCurve, GetCurveByName, GetCurveName, EC, SetCurve", "crypto/ecpoint.go: MarshalJSON, UnmarshalJSON"]}
{"id": "C124", "title": "The text of a message shows its routing and nothing of its contents", "statement": "The String of a message depends on its type, the index and moniker of sender and recipients and the broadcast flag only; no share, nonce, commitment or proof and no key of a party is in it. Conversely, if no moniker has a closing brace in it, the text determines all of these. Printing crashes exactly if the message has no sender: the messages parties build always print, those the accept functions parse never do. A receiver that states sender and flag as sent prints a broadcast as the sender does; a message for one recipient reads \"To: all\" at the receiver.", "quantifier": "all messages, contents, routings and party ids", "why_tests_cant": "A statement about every pair of messages; tests print a few.", "anchors": ["tss/message.go: MessageImpl.String, NewMessage", "tss/party_id.go: PartyID.String", "tss/wire.go: ParseWireMessage, ParseWireMsg"]}
{"id": "C125", "title": "Mock party ids", "statement": "GenerateTestPartyIDs(count, s) for a drawn number K that is at least count - s gives exactly count parties in ascending order of their keys K-count+s, K-count+s+1, ..., with index s, s+1, ... and the names s+1, P[s+1] and so on. The keys are distinct exactly if K is at least count - s or at most 1 - s. Deviation: of the 2^256 - 1 numbers that can be drawn, exactly count - 2 give two parties the same key, as keys lose their sign. A negative count panics.", "quantifier": "all counts, start indices, random sources", "why_tests_cant": "All numbers drawn; the failing ones are never hit by a test.", "anchors": ["tss/party_id.go: GenerateTestPartyIDs, SortPartyIDs", "common/random.go: MustGetRandomInt"]}
{"id": "C126", "title": "What a discrete-logarithm proof about ring parameters proves", "statement": "Verify uses 128 bits of a hash of h1, h2, N and the commitments as challenges; an accepted proof answers all of them. If h1 is prime to N and h2 is not a power of h1 modulo N, then for every choice of commitments at most one of the 2^128 strings of challenge bits can be answered at all, whatever the prover computes; this one can always be chosen by the prover before. If h2 is a power of h1, commitments that are powers of h1 let every string be answered. Deviation: Verify does not check that h1 is prime to N. With N = P*Q, h1 = 1 modulo P and 0 modulo Q, and h2 = 1 modulo P, a proof is accepted for every hash function though h2 is no power of h1.", "quantifier": "all moduli, bases, commitments, responses, challenge strings and hash functions", "why_tests_cant": "A statement about all moduli and about the number of challenges that no prover can answer.", "anchors": ["crypto/dlnproof/proof.go: NewDLNProof, Verify"]}
{"id": "C127", "title": "Public shares outside the prime-order subgroup", "statement": "Keygen checks of a peer's share that it is on the curve and that the proof equation z*G = A + e*X holds. If exactly the multiples of d bring X into the subgroup of the base point (on Ed25519: d is 1, 2, 4 or 8, the order of the torsion part of X, and X has a discrete logarithm exactly if d is 1), a commitment A answers the challenges of one residue class modulo d and no others, one of any d consecutive ones; for every class there is a commitment. Round 4 passes exactly in that case. Deviation: for d > 1 keygen can so end with Ok though the share has no discrete logarithm; the group key is then outside the subgroup, and a signature with a nonce point in the subgroup verifies under it exactly if d divides the hash of the signature, so the others of the signings fail with nobody to blame.", "quantifier": "all shares, commitments, challenges, histories, messages and signatures", "why_tests_cant": "The probability of the accepted class is at least 1/8, but tests never send a share outside the subgroup.", "anchors": ["eddsacmp/keygen/round_3.go: KeygenRound3Exec", "eddsacmp/keygen/round_4.go: KeygenRound4Exec", "crypto/schnorr/schnorr_proof.go: Verify", "eddsacmp/onsign/round_final.go: OnsignFinalExec"]}
{"id": "C128", "title": "Text formats the API accepts", "statement": "Party keys and responses (base 10) and chain codes (base 16): a text is accepted for the integer z exactly if it is at most one sign and at least one digit of that base, in either case, and denotes z; spaces, prefixes and separators are refused. Messages and root keys: a text is accepted for the bytes b exactly if it has two hexadecimal digits of either case for each byte of b and denotes the same number. Wire messages and saved keys: a text is accepted for the bytes b exactly if, CR and LF taken out, its length is a multiple of 4 and it is characters of the base64 alphabet and at most two final =, and b is the whole bytes of the bits; surplus bits are ignored. A text denotes at most one value.", "quantifier": "all texts, values and bases", "why_tests_cant": "All texts; tests decode what the library encoded.", "anchors": ["eddsacmp/keygen/local_party.go: NewLocalParty", "eddsacmp/keygen/round_1.go: KeygenRound1Accept", "eddsacmp/onsign/local_party.go: NewLocalParty", "crypto/encproof/proof.go: EncryptRangeMessage.Verify", "crypto/logproof/proof.go: LogStarMessage.Verify"]}
{"id": "C129", "title": "Exactly which byte strings are a wire message", "statement": "ParseWireMsg returns the content c for a byte string b exactly if b derives, by the grammar of the protobuf wire format (varints of at most ten groups and 64 bits, superfluous zero groups allowed; tags with field numbers from 1 to 2^29-1; fixed and length-delimited fields; groups closed by their own tag), as an Any whose type URL is UTF-8 in every occurrence and ends, after a slash if it has one, in the name of the message of c, and whose value derives as a message in which each singular field of c has the value of its last occurrence, empty if there is none, and repeated fields all values in order. Unknown fields do not matter. A byte string is a message of at most one content.", "quantifier": "all byte strings and contents", "why_tests_cant": "Whether the decoder agrees with the grammar on all byte strings a peer can send.", "anchors": ["tss/wire.go: ParseWireMsg, ParseWireMessage", "protob/eddsa-cmp-keygen.proto", "protob/eddsa-cmp-onsign.proto"]}
{"id": "C130", "title": "Exactly which texts are JSON, and what they mean", "statement": "The JSON reader under UnmarshalJSON of a point and under NewLocalParty's reading of saved keys takes a text for the value v exactly if the grammar of RFC 8259 derives it as v: one value between white space, nested at most 10000 deep; numbers without leading zeros, plus sign or bare point; strings without control characters, with the eight short escapes, \\u escapes of four hexadecimal digits of either case and pairs of surrogates; a byte that begins no UTF-8 character and a surrogate that is not the first of a pair are read as U+FFFD. A text has at most one value.", "quantifier": "all byte strings and values", "why_tests_cant": "All texts, any nesting; tests read what the library wrote.", "anchors": ["crypto/ecpoint.go: UnmarshalJSON", "eddsacmp/onsign/local_party.go: NewLocalParty"]}
{"id": "C131", "title": "Exactly which texts are read as which point", "statement": "UnmarshalJSON reads a text as the point (x, y) of the curve c exactly if (x, y) is on c and the text is a JSON object in which every member named Curve, in any case, is a string or null, every member named Coords is null or an array whose first two elements are integers in base 10 or null, the last Coords that is not null begins with integers that denote x and y, and the last Curve that is not null is the registered name of c; if that is empty or there is none, c is the global curve. Names are compared with simple case folding, which counts the long s as an s. Anything else is refused, and null between white space crashes.", "quantifier": "all byte strings, points, curves and global curves", "why_tests_cant": "All texts, also those no marshaller writes: repeated members, other cases, additional elements.", "anchors": ["crypto/ecpoint.go: UnmarshalJSON, MarshalJSON"]}
{"id": "C132", "title": "Exactly which key data NewLocalParty reads", "statement": "The saved key data of the signing party is read as a record exactly if the text is JSON null (an empty record) or a JSON object in which every member with the name of a field, in any case, can be read as that field (integers in base 10, lists, points on their curve, Paillier keys and ring-Pedersen parameters, each also null), and each field of the record is what its last member says, or empty if it has none. Other members do not matter. A missing modulus, S or T counts as 0, a point without a curve's name is on Ed25519. A text stands for at most one record, the text keygen writes for its own record only. Simplification: lists of Paillier keys or ring-Pedersen parameters that are repeated are not merged.", "quantifier": "all byte strings and records", "why_tests_cant": "All texts, also those no marshaller writes.", "anchors": ["eddsacmp/onsign/local_party.go: NewLocalParty", "eddsacmp/keygen/save_data.go: LocalPartySaveData", "crypto/ecpoint.go: UnmarshalJSON"]}
