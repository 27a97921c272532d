#!/usr/bin/env python3
"""Writes /verif/properties.jsonl.  Plain data, one tuple per property."""
import json, os
P = []
def p(title, statement, quantifier, why, *anchors):
    P.append(dict(id="C%02d" % (len(P)+1), title=title, statement=statement,
                  quantifier=quantifier, why_tests_cant=why, anchors=list(anchors)))

H = "common/hash.go"
p("Hash framing of byte-string lists is unambiguous",
  "common.SHA512_256(parts...) returns nil exactly for zero parts; otherwise two calls that give different lists of byte strings never feed the same octets to the hash, so equal digests mean equal part lists or an actual SHA-512/256 collision.",
  "all pairs of lists of byte strings, of any lengths and contents (including the delimiter byte)",
  "A test samples finitely many part lists; ambiguity is an existential over all pairs of lists.",
  H+": SHA512_256, hashInputDelimiter")
p("Integer and tagged hashes bind magnitudes and nothing else",
  "SHA512_256i and SHA512_256i_TAGGED feed the hash an encoding that determines the number of integers and each absolute value (and the tag digest); they do not bind the sign: negating any input leaves the digest unchanged, and in the tagged form nil hashes like 0.",
  "all tags, all lists of integers (signed, zero, nil)",
  "Needs injectivity over unbounded integers and the exact class of aliases.",
  H+": SHA512_256i, SHA512_256i_TAGGED, SHA512_256iOne")
p("RejectionSample lands in the field",
  "For positive q, RejectionSample(q, h) is the residue of h modulo q and so lies in [0,q); the round-4/round-3 Schnorr challenge is therefore always a reduced scalar.",
  "all positive moduli and all digests", "Range claims over all integers.", "common/hash_utils.go: RejectionSample")
p("Random integers fall in the promised range and every value can occur",
  "GetRandomPositiveInt(n) returns a value in [0,n) and returns nil exactly for n<=0/nil; every value in [0,n) occurs for some tape; MustGetRandomInt(bits) panics exactly outside 1..5000 and otherwise returns a value in [0,2^bits-1); GetRandomPositiveRelativelyPrimeInt(n) only returns members of the multiplicative group mod n.",
  "all bounds and all random tapes", "The tape is unbounded randomness; a test sees a few draws.",
  "common/random.go: MustGetRandomInt, GetRandomPositiveInt, GetRandomPositiveRelativelyPrimeInt, IsNumberInMultiplicativeGroup")
p("Left padding preserves value and length",
  "PadToLengthBytesInPlace(src,n) has length max(len(src),n), denotes the same big-endian integer, and only prepends zeros.",
  "all byte strings and all target lengths", "All lengths and contents.", "common/slice.go: PadToLengthBytesInPlace")
p("Byte/integer list conversions and non-empty checks are exact",
  "BigIntsToBytes followed by MultiBytesToBigInts returns the absolute values; exactly nil and 0 become empty strings, and no string starts with a zero byte; NonEmptyMultiBytes(bzs, n) is true iff the list is non-empty, has n elements when n is given, and no element is empty.",
  "all lists of integers / byte strings", "Unbounded lists.", "common/slice.go: BigIntsToBytes, MultiBytesToBigInts, NonEmptyBytes, NonEmptyMultiBytes")
p("ModInt arithmetic is arithmetic of residues",
  "ModInt(n).Add/Sub/Mul/Exp/ModInverse return a value in [0,n) that is congruent to the mathematical result; ModInverse returns nil iff the argument is not invertible.",
  "all moduli n>0 and all integers", "Universal over integers.", "common/int.go: ModInt, Add, Sub, Mul, Exp, ModInverse, IsInInterval")
p("Party index is the rank of the party's key",
  "SortPartyIDs returns the same parties sorted by key with indices 0..n-1; for distinct keys the result does not depend on the order of the input, so all participants agree on who is index i.",
  "all lists of party ids and all permutations of them", "All permutations and list lengths.", "tss/party_id.go: SortPartyIDs, Less, Keys")
p("Lookup and exclusion of party ids are exact",
  "FindByKey returns a party iff one with that key is in the list, and then the first one; Exclude removes exactly the entries with that key and keeps the order; ValidateBasic is exactly 'non-nil, non-nil key, index >= 0' (an empty but non-nil key passes).",
  "all id lists and keys", "All lists.", "tss/party_id.go: FindByKey, Exclude, ValidateBasic")
p("Operations on one key never affect another party",
  "Every exported keygen and signing call with key k leaves the state stored under every other key, and the whole other registry, unchanged, whatever it returns, including when it panics.",
  "all states, keys, arguments, operations and operation sequences", "Quantifies over all histories.",
  "eddsacmp/keygen/local_party.go: Parties", "eddsacmp/onsign/local_party.go: SignParties", "eddsa.go")
p("Calls with an unknown key fail cleanly",
  "Every exported call that takes a key of no existing party returns a result that is not Ok, carries an error text, never panics, and leaves all state unchanged.",
  "all states and arguments, every operation", "All states and arguments.",
  "eddsacmp/keygen/round_1.go", "eddsacmp/keygen/round_2.go", "eddsacmp/keygen/round_3.go", "eddsacmp/keygen/round_4.go", "eddsacmp/onsign/round_1.go", "eddsacmp/onsign/round_2.go", "eddsacmp/onsign/round_3.go", "eddsacmp/onsign/round_final.go")
p("Remove is exact and final",
  "Removing a party returns true iff it existed; afterwards every call with that key reports that the party is not found until it is created again; no other party is touched.",
  "all states, keys and later histories without a re-creation", "Ranges over all later histories.",
  "eddsacmp/keygen/local_party.go: RemoveKeygenParty", "eddsacmp/onsign/local_party.go: RemoveSignParty")
p("Creating a keygen party places it at the requested index",
  "NewLocalParty succeeds exactly when at least partyCount ids are given, the first partyCount are decimal integers, partyIndex is in range and the root key is hex; the new party then knows itself as index partyIndex among the ids sorted by absolute value, has empty message slots and replaces any earlier party of that name. Non-decimal ids, missing ids or a bad index crash the process instead of returning an error.",
  "all argument tuples", "All argument tuples incl. malformed ones.", "eddsacmp/keygen/local_party.go: NewLocalParty")
p("Saving chain codes is all-or-nothing",
  "SaveChainCodes succeeds iff the text splits at '|' into exactly partyCount hexadecimal integers; on success exactly these values are stored, on failure nothing changes. The record that key generation returns holds the values of the last successful call, whatever other calls came in between, and none if there was no such call.",
  "all states, keys and strings", "All strings.", "eddsacmp/keygen/local_party.go: SaveChainCodes")
p("Accepting a round message only touches the sender's slot of that round",
  "KeygenRoundNAccept(key, from, bytes) (N=1,2,3) writes only slot `from` of round N of that party, leaving all other slots, rounds and secrets alone, and panics exactly when `from` is not an index of a participant or the bytes are a valid message of another type; Ok is returned iff the bytes are a well-formed round-N message.",
  "all party states, senders and byte strings", "All byte strings and states.",
  "eddsacmp/keygen/round_1.go: Round1Accept", "eddsacmp/keygen/round_2.go: Round2Accept", "eddsacmp/keygen/round_3.go: Round3Accept")
p("A rejected message still overwrites the stored one",
  "Keygen accept stores the bytes before parsing: after an Ok accept of a good message, an accept of garbage from the same sender returns an error but the good message is gone, RoundNFinish still says Ok and the next Exec fails or crashes. 'Finish Ok implies all stored messages are well-formed' is false; it holds for histories in which every accept returned Ok.",
  "all histories of accepts", "The failure needs a specific interleaving; the positive half ranges over all histories.",
  "eddsacmp/keygen/round_1.go: Round1Accept, Round1Finish", "eddsacmp/keygen/round_2.go: Round2Accept, Round2Finish", "eddsacmp/keygen/round_3.go: Round3Accept, Round3Finish")
p("Finish succeeds iff every other party's message arrived",
  "KeygenRoundNFinish returns Ok iff each participant other than this one has a non-empty message stored for round N; otherwise the error names the smallest missing index; it changes nothing.",
  "all party states", "All subsets of arrivals.", "eddsacmp/keygen/round_1.go: Round1Finish", "eddsacmp/keygen/round_2.go: Round2Finish", "eddsacmp/keygen/round_3.go: Round3Finish")
p("Round 3 accepts only openings of the round-1 commitments",
  "If KeygenRound3Exec returns Ok then for every other party j the round-2 message parses, its ssid is ours, both points are on the curve, and the hash of (ssid, j, srid, X, A, u) equals the commitment j sent in round 1; so j cannot change its key share after seeing others' shares without a hash collision.",
  "all party states (adversarial messages)", "Adversarial messages of any content.", "eddsacmp/keygen/round_3.go: Round3Exec", "eddsacmp/keygen/message/messages.go: CommitmentHash")
p("Round 3 is not repeatable",
  "Running KeygenRound3Exec a second time folds every peer's randomness into the session randomness twice, so it changes the session randomness (for two parties it cancels the peer's contribution) and the Schnorr proof it emits is for a different challenge than the peers will check. A single successful run gives the xor of all contributions, the same for every party.",
  "all states; witness for the negative half", "Depends on the call history.", "eddsacmp/keygen/round_3.go: Round3Exec")
p("Round 4 succeeds only if every peer proved knowledge of its share",
  "If KeygenRound4Exec returns Ok then for each other party j the round-3 message parses and its Schnorr response z satisfies z*G = A_j + c_j*X_j with c_j the challenge derived from ssid, the common randomness, j, X_j and A_j; and the returned public key is the sum of all public shares.",
  "all party states (adversarial messages)", "Adversarial messages of any content.", "eddsacmp/keygen/round_4.go: Round4Exec", "crypto/schnorr/schnorr_proof.go: Verify")
p("Honest key generation succeeds and all parties agree",
  "If n parties created with the same ids run rounds 1-4 and every message is delivered (any order, duplicates allowed) before the receiver's next round, every call returns Ok, all parties output the same public key, it equals (sum of private shares)*G, and each party's list of public shares is x_j*G at position j.",
  "all n, all private shares, all randomness, all delivery orders", "Schedules and randomness are unbounded.", "eddsacmp/keygen/round_1.go", "eddsacmp/keygen/round_2.go", "eddsacmp/keygen/round_3.go", "eddsacmp/keygen/round_4.go")
p("Empty root key yields the zero share",
  "Creating a keygen party with an empty root key string does not produce a random share: the share is 0 and the public share sent in round 1 commits to the identity; the 'generate a random share' branch is unreachable for parties made through the API.",
  "all histories through the API", "Reachability over all histories.", "eddsacmp/keygen/local_party.go: NewLocalParty", "eddsacmp/keygen/round_1.go: Round1Exec")
E = "crypto/ecpoint.go"
p("Points handed out are on the curve",
  "NewECPoint succeeds iff the coordinates satisfy the curve equation; results of Add, ScalarMult, ScalarBaseMult, EightInvEight on valid points are valid points of the same curve.",
  "all coordinates, points and scalars", "Universal over points.", E+": NewECPoint, Add, ScalarMult, ScalarBaseMult, isOnCurve")
p("Scalar multiplication is a group action of integers modulo the order",
  "For points of order dividing N, (a+b)*P = a*P + b*P, (a*b)*P = a*(b*P), and scalars congruent modulo N act the same, including negative and oversized scalars.",
  "all scalars and subgroup points", "Universal algebraic law.", E+": ScalarMult, ScalarBaseMult, Add")
p("EightInvEight clears torsion",
  "EightInvEight fixes every point of the prime-order subgroup and sends P+T to P for every T of order dividing 8; so round-3 signing only combines subgroup points.",
  "all points of a curve with cofactor dividing 8 and order N coprime to 8", "Universal over points.", E+": EightInvEight")
p("Point flattening round-trips",
  "UnFlattenECPoints(FlattenECPoints(ps)) returns ps; odd-length or nil input, nil coordinates and (unless disabled) off-curve pairs are rejected, and nothing else is. FlattenECPoints refuses exactly a nil slice and points that are nil or lack a coordinate.",
  "all lists of points / integers", "Unbounded lists.", E+": FlattenECPoints, UnFlattenECPoints")
p("Point gob and JSON encodings round-trip",
  "GobDecode(GobEncode P) and UnmarshalJSON(MarshalJSON P) return P for on-curve points of registered curves; inputs naming unknown curves or off-curve coordinates are rejected, and so is a text or a gob encoding cut short. The gob bytes accepted are exactly two length-prefixed chunks, each there in full, of encoded integers that make up a point of the global curve, with anything behind. A text without a curve name stands for whatever curve is the global one; the text null crashes UnmarshalJSON.",
  "all points, all byte strings", "Unbounded integers.", E+": GobEncode, GobDecode, MarshalJSON, UnmarshalJSON", "tss/curve.go")
S = "crypto/schnorr/schnorr_proof.go"
p("Schnorr proofs made by the prover verify",
  "Verify accepts Prove's response for the same nonce, secret and challenge; NewZKProof/Verify and NewZKVProof/Verify accept honest proofs.",
  "all secrets, nonces, sessions", "All secrets and randomness.", S)
p("Schnorr special soundness",
  "Two accepted responses for the same commitment and two challenges that differ modulo the (prime) group order determine the secret: x = (z1-z2)/(c1-c2) satisfies x*G = X. All three verifiers accept exactly the transcripts that satisfy their group equation with the challenge they recompute, and never crash on valid points.",
  "all accepted transcripts", "Universal over adversarial transcripts.", S+": Verify")
PA = "crypto/paillier/paillier.go"
p("Paillier decryption inverts encryption",
  "For N=PQ with P,Q distinct odd primes such that gcd(PQ,(P-1)(Q-1))=1, Decrypt(Encrypt(m)) = m for every 0<=m<N and every unit randomness; Encrypt rejects m outside [0,N).",
  "all keys, plaintexts, randomness", "Unbounded number-theoretic claim.", PA+": EncryptAndReturnRandomness, Encrypt, Decrypt")
p("Paillier homomorphisms",
  "Decrypt(HomoAdd(Enc a, Enc b)) = a+b mod N and Decrypt(HomoMult(k, Enc a)) = k*a mod N; operands out of range are rejected.",
  "all keys, plaintexts, ciphertexts", "Unbounded.", PA+": HomoMult, HomoAdd")
p("Paillier key generation yields a usable key",
  "Whatever safe primes are delivered, the returned key has N=PQ with P != Q, |P-Q| at least the stated bit bound, PhiN=(P-1)(Q-1) and LambdaN=lcm(P-1,Q-1).",
  "all sequences of primes delivered by the generator", "The retry loop is unbounded.", PA+": GenerateKeyPair")
p("Paillier square-free proof verifies for honest keys, independent of scheduling",
  "Proof.Verify accepts a proof made with the private key, rejects N divisible by a small prime or with a wrong response, and its answer does not depend on the order in which its goroutines report.",
  "all keys, all schedules", "All interleavings.", PA+": Proof, Verify, GenerateXs")
AP = "crypto/alice/paillier/paillier.go"
p("The signing Paillier scheme is correct and homomorphic",
  "alice Paillier: Decrypt(Encrypt m)=m for m in [0,N), Add and MulConst act as plaintext addition and multiplication mod N, malformed ciphertexts (0, >=N^2, not coprime) are rejected; generated keys are products of two distinct primes of the asked size with coprime totient, the published root really is an N-th root, and a public-key message parses back to the same key.",
  "all keys, messages and ciphertext strings", "Unbounded.", AP+": Encrypt, Decrypt, Add, MulConst, isCorrectCiphertext")
p("Encryption-range proofs: honest proofs verify",
  "For honest inputs the verification equations of the encryption-range proof hold, and the verifier accepts iff in addition the masked value z1 is within its range bound.",
  "all keys, plaintexts, randomness, challenges", "All inputs.", "crypto/encproof/proof.go: NewEncryptRangeMessage, Verify")
p("Encryption-range proofs: acceptance implies bounded plaintext relation",
  "Acceptance implies the three verification relations, the bound on z1, and two accepting transcripts with the same first message and different challenges give integers that open the ciphertext relation (special soundness equations).",
  "all accepted transcripts", "Adversarial transcripts.", "crypto/encproof/proof.go: Verify")
p("Malformed range proofs can crash the verifier",
  "There are messages a peer can send for which proof verification panics instead of returning an error: a non-numeric z1 string, and a ciphertext not coprime to N when the challenge is negative.",
  "existential witnesses", "Crash points require searching over adversarial messages.", "crypto/encproof/proof.go: Verify", "crypto/logproof/proof.go: Verify")
p("Log-equality proofs: honest proofs verify",
  "For honest inputs every verification equation of the knowledge-of-exponent (log*) proof holds and the verifier accepts iff z1 is in range and z2 is a unit.",
  "all keys, exponents, randomness", "All inputs.", "crypto/logproof/proof.go")
p("Log-equality challenge does not bind x-coordinates",
  "The log* challenge hashes only the y-coordinates of the points and omits the ring-Pedersen bases, so a statement about X and the statement about its negation have the same challenge.",
  "all statements and proofs", "Equality of challenges for all inputs.", "crypto/logproof/proof.go: NewKnowExponentAndPaillierEncryption, Verify")
p("Paillier-Blum modulus proof: completeness and order-independence",
  "For N=PQ with Blum primes, every item the prover produces satisfies x^4 = (-1)^a w^b y and z^N = y mod N; an honest proof verifies iff all challenges are units; the verifier's answer does not depend on goroutine order; even N crashes it; acceptance with W of Jacobi symbol -1 and enough good challenges implies the Blum structure, but W of Jacobi symbol 0 is not excluded and lets a forged proof for a bad modulus through.",
  "all Blum moduli, randomness and schedules", "All interleavings and moduli.", "crypto/modproof/proof.go")
p("Modulus-proof serialization",
  "NewProofFromBytes(Bytes(p)) = p for proofs whose parts are all non-zero; wrong part counts or empty parts are rejected.",
  "all proofs / byte lists", "Unbounded.", "crypto/modproof/proof.go: Bytes, NewProofFromBytes, ValidateBasic")
p("Ring-Pedersen discrete-log proof: completeness, soundness, serialization",
  "dlnproof: honest proofs verify (outside the degenerate t mod N in {0,1} cases), an accepted pair of different challenge bits gives a discrete log of h2, Serialize/Unmarshal round-trip. The verifier never crashes on a proof without nil entries and negative responses, and so never on one that Unmarshal returned; a nil entry crashes it exactly if no entry checked before it is 0 or 1 modulo N (the nil check in the loop is never reached). Unmarshal itself crashes on a first entry whose low 64 bits have the top bit set.",
  "all moduli, exponents, challenges", "All inputs.", "crypto/dlnproof/proof.go")
p("Ring-Pedersen parameter proof: completeness and two-transcript soundness",
  "alice ring-Pedersen parameter proof: honest proofs verify, fewer than the minimum number of challenges is refused, two accepting answers to different challenge bits of the same commitment reveal that s is a power of t; each challenge bit depends on its own commitment only, so one good repetition can be repeated and a false statement can be proved after a few trials.",
  "all parameters and salts", "All inputs.", "crypto/alice/zkproof/paillier/ring_pedersenzkproof.go")
p("Integer factorization proof: completeness",
  "NewIntegerFactorizationProofMessage proofs satisfy z^(y-Ne) = x mod N and verify; the verifier accepts small and prime moduli too: it checks neither size nor compositeness.",
  "all moduli and randomness", "All inputs.", "crypto/alice/zkproof/integerfactorization.go")
p("Hash commitments: open correctly and bind",
  "Decommit/Verify of a fresh commitment returns the committed secrets; two different openings of the same commitment give a hash collision (up to sign of the integers).",
  "all secrets and randomness", "Universal.", "crypto/commitments/commitment.go")
p("Commitment part builder round-trips",
  "ParseSecrets(Secrets(parts)) = parts for up to 3 parts of at most 1M integers whose last part is non-empty; a trailing empty part is lost; a crafted length can crash the parser.",
  "all part lists", "Unbounded lists.", "crypto/commitments/commitment_builder.go")
K = "crypto/ckd/child_key_derivation_eddsa.go"
p("Child private and public derivation agree",
  "For every non-hardened path, the child public key derived from the parent public key equals the child private key times G (Ed25519 and secp256k1 variants); so the derived shares still sum to the derived group key.",
  "all keys, chain codes and index paths of any length", "Paths of any length.", K, "crypto/ckd/child_key_derivation.go")
p("Derivation path parsing",
  "A path component is accepted iff it is a decimal integer whose low 32 bits are below 2^31 (with optional apostrophe for private derivation); an empty component crashes; public derivation refuses hardened components.",
  "all strings", "All strings.", K, "eddsacmp/onsign/local_party.go: NewLocalParty")
p("Extended key strings",
  "NewExtendedKeyFromString(String(k)) = k for keys with 4-byte version, 4-byte fingerprint and 32-byte chain code; keys made by this library carry a 1-byte version and never parse back; strings of other length or wrong checksum are rejected; whatever parses re-serialises to the same octets; a parsed key can derive no child; with a curve that is not the Koblitz curve any string of the right length and checksum parses into a key without coordinates. With base58 as published the text is canonical: a text that is accepted is exactly the text its key prints as, and no other text gives that key.",
  "all extended keys", "All keys.", "crypto/ckd/child_key_derivation.go: String, NewExtendedKeyFromString")
p("Creating a signing party",
  "Signing-party creation reports an error for bad base64, bad JSON, a path without 5 components, a bad message; on success, the party's share is the root share plus the derived offset and each public share is derived consistently, so that own public share = own share * G; hardened components crash, and so do refresh payloads that are shorter than the share even after the spare capacity of the decoding buffer is counted (otherwise the missing octets are read from that buffer).",
  "all argument tuples", "All argument tuples.", "eddsacmp/onsign/local_party.go: NewLocalParty")
p("Signing accepts store only well-formed round-1 messages",
  "SignRound1Accept keeps a previously stored message when given malformed bytes, and files each message under its type; round 2/3 accepts overwrite first.",
  "all states and byte strings", "All byte strings.", "eddsacmp/onsign/round_1.go: OnSignRound1Accept", "eddsacmp/onsign/round_2.go", "eddsacmp/onsign/round_3.go")
p("Signing finish checks are exact",
  "SignRoundNFinish returns Ok iff all required slots (including the party's own) are filled; it changes nothing.",
  "all states", "All subsets of arrivals.", "eddsacmp/onsign/round_1.go", "eddsacmp/onsign/round_2.go", "eddsacmp/onsign/round_3.go")
p("Signing aborts on an invalid peer proof",
  "SignRound2Exec Ok implies the encryption proof of each peer verified against that peer's context, key and our ring-Pedersen parameters; SignRound3Exec Ok implies each peer's log proof verified; failures name the peer.",
  "all states", "Adversarial messages.", "eddsacmp/onsign/round_2.go: OnSignRound2Exec", "eddsacmp/onsign/round_3.go: OnSignRound3Exec")
p("A released signature verifies",
  "If the final signing call returns Ok, the returned signature verifies under the group key for the message bytes held by the party.",
  "all states (adversarial shares)", "Adversarial shares.", "eddsacmp/onsign/round_final.go: OnSignFinal")
p("Honest signing produces a valid signature for any number of parties",
  "If all parties run honestly with shares x_j and nonces k_j, the combined (R,s) satisfies s*G = R + H(R,A,M)*A, every party outputs the same signature, and the final call returns Ok.",
  "all n, shares, nonces, messages, delivery orders", "Unbounded.", "eddsacmp/onsign/round_3.go", "eddsacmp/onsign/round_final.go")
p("Leading zero bytes of the message are not signed",
  "The message is held as an integer: messages that differ only in leading zero bytes yield the same signed bytes, and the signature returned is over the stripped message.",
  "all messages", "Universal; negative half by witness.", "eddsacmp/onsign/local_party.go", "eddsacmp/onsign/round_3.go", "eddsacmp/onsign/round_final.go")
U = "eddsacmp/onsign/utils.go"
p("Scalar and point encodings used in signing",
  "encodedBytesToBigInt(bigIntToEncodedBytes(a)) = a for 0<=a<2^256 (longer values are truncated); the encoded point is the 32-byte little-endian y with the parity of x in the top bit, so distinct on-curve points encode differently.",
  "all integers and points", "Universal.", U)
p("Projective to extended conversion is correct when z is a unit",
  "ecPointToExtendedElement represents the same affine point whenever the random z is non-zero mod p.",
  "all points and z", "Universal.", U+": ecPointToExtendedElement")
p("Restricting save data to the signing parties",
  "BuildLocalSaveDataSubset with the full sorted id list is the identity; for each requested id it copies that party's key and public share to the new position, unknown ids give an error; for a strict subset the public-share list keeps stale trailing entries; more ids than parties, all known, panic.",
  "all save data and id lists", "All lists.", "eddsacmp/keygen/save_data.go: BuildLocalSaveDataSubset")
p("Safe-prime pairs are well-formed",
  "Every pair emitted by the safe-prime search satisfies p=2q+1, both pass the primality test used, p has exactly the requested bit length, and the number of primes returned is the number requested.",
  "all random tapes, candidate sequences and schedules", "Unbounded search and schedules.", "common/safe_prime.go")
p("Safe-prime search shutdown",
  "Depending on the schedule the generator's workers can remain blocked on a full channel after enough primes were found, so that the call never returns; whenever it returns, all workers have stopped.",
  "all schedules", "A specific interleaving.", "common/safe_prime.go: GetRandomSafePrimesConcurrent, runGenPrimeRoutine")
p("Party driver: lock balance and no effect of invalid messages",
  "Concurrent BaseStart/BaseUpdate calls exclude each other, take effect one after the other and never deadlock; they leave the party lock released on every path that returns, an invalid message changes nothing, and rounds advance only when the round says it can proceed; a panic inside BaseUpdate keeps the lock for ever; a finished party can be started again.",
  "all parties, messages, round behaviours", "All round implementations.", "tss/party.go: BaseStart, BaseUpdate, BaseParty.setRound, advance")
p("Wire messages round-trip",
  "ParseWireMessage of the wire bytes of a message returns the same content with the sender and broadcast flag given; empty bytes, unknown content types and numbers of more than 64 bits are rejected.",
  "all message contents and byte strings", "All byte strings.", "tss/wire.go", "tss/message.go", "eddsacmp/keygen/message/messages.go", "eddsacmp/onsign/message/messages.go")
p("Committee membership",
  "ReSharingParameters.IsOldCommittee/IsNewCommittee hold iff the party's key is in the respective id list; counts are as configured; OldAndNewParties lists the old then the new ids, but writes them into the old list's array when that has room.",
  "all committees", "All lists.", "tss/params.go")
p("alice helper functions are exact",
  "RandomAbsoluteRangeInt(n) returns exactly the values 1-n..n+1 (not -n..n as documented); Xor is commutative, self-inverse and has the longer length; BytesToBits/BitsToBytes round-trip; Lcm and EulerFunction are right; InRange is exact; FastMod3 is mod 3.",
  "all inputs", "Universal.", "crypto/alice/utils/utils.go", "crypto/alice/utils/prime.go")
p("The safe-prime sieve and Pocklington check are sound",
  "checkSafePrimes-style sieving rejects only candidates with a small factor in m or 2m+1, and for an odd prime q, 2^(2q)=1 mod 2q+1 implies 2q+1 is prime. GenerateRandomSafePrime returns primes of exactly the size asked for with the two top bits set, so the product of two has exactly twice as many bits; sizes 3 to 10 never return.",
  "all candidates", "Number-theoretic theorem.", "crypto/alice/utils/prime.go", "common/safe_prime.go: isPocklingtonCriterionSatisfied")
p("The curve used is really a group of prime order",
  "The Ed25519 addition formulas used by the library form a commutative group on the points satisfying the curve equation, the field modulus and the subgroup order are prime, and the base point has that order.",
  "all points of the curve", "Universal algebraic law and primality.", "tss/curve.go: Edwards", "crypto/ecpoint.go")
p("Public wrapper functions are faithful",
  "Each exported function of the top package forwards its arguments unchanged to the corresponding keygen/signing function and copies every field of the result.",
  "all arguments and states", "All arguments.", "eddsa.go")
exec(open(os.path.join(os.path.dirname(__file__), "more_properties.py")).read()) if os.path.exists(os.path.join(os.path.dirname(__file__), "more_properties.py")) else None
with open(os.path.join(os.path.dirname(__file__), "..", "properties.jsonl"), "w") as f:
    for q in P: f.write(json.dumps(q)+"\n")
print(len(P))
