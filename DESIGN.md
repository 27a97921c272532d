# Formal model of felicityin/tss-app in Lean 4

Layout: `lean/Verif/Model/*` transcribes the Go code (every definition cites file and lines), `lean/Verif/Lemmas/*` holds
helper lemmas, `lean/Verif/Props/*` holds the property theorems (`Cnn_*`), with the small specifications they use
(namespaces `…spec`) and, beside them, `example`s showing that the hypotheses are met.  `MANIFEST.json` maps properties to
theorems, `AXIOMS.md` lists the axioms of every one of them, `seeded/LOG.jsonl` the wrong programs tried.

## 1. What is modelled, and how

* **Go values.** `[]byte` is `List UInt8` (`Bytes`); `*big.Int` is `Int` (`Option Int` where the code can meet a nil); a `string`
  is its list of bytes; slices that are only appended to or indexed are `List`; an out-of-range index is a panic.  Where
  aliasing of the backing array is visible (BuildLocalSaveDataSubset, OldAndNewParties, the buffer of hex.DecodeString) it is
  modelled.  Machine words (`uint32`, `uint64`, `int8`) are fixed-width where their wrap-around is observable: secp256k1 limbs,
  path indices, depth bytes, EnsureRank.
* **Go outcomes.** `Res ε α = ok a | err e | panic`.  `err` is a returned error, `panic` a process crash (nil dereference, index
  out of range, explicit `panic`).  Every modelled function is total; a panic is a value, so "never panics" and "panics exactly
  when" are theorems.  A loop without a bound in Go takes fuel and returns `Option`; theorems are about every fuel, and "never
  returns" means `none` for every fuel.
* **Exported API.** Each exported call is a function from (arguments, global state) to (result, new global state); the global
  state holds the two package-level maps `Parties` and `SignParties`.  Mutations made before an error or a panic are kept in the
  returned state, as in Go.  `Op`, `Op.run` and `Reach` give all histories of calls; `Session`, `Step`, `Noise` and `Run` give all
  schedules of an n-party protocol run over a network that reorders, repeats and delays.
* **Randomness.** Explicit arguments or byte tapes, universally quantified.
* **Hash functions** (SHA-512/256, SHA-512, HMAC-SHA512, hash160, blake2b, keccak) are universally quantified parameters: the theorems
  hold for every function in their place.  Binding statements have the form "equal, or here are two different inputs with the
  same digest".
* **Curves.** The `elliptic.Curve` interface is a structure of functions; `Lawful` says that it computes in an abelian group.  Both
  curves of the code base are then shown to be lawful from their arithmetic: Ed25519 (C67: affine Edwards law proved by polynomial
  identities, primes by Pratt certificates, group order 8·ℓ) and secp256k1 (C72–C75: the 26-bit limb code of the vendored btcec,
  Jacobian formulas, window table of 8192 points, endomorphism split and NAF multiplication, against Mathlib's Weierstrass group).
* **Concurrency.** Calls of the API are sequential in the histories of the other properties; C102 (Model/Calls) models calls made at the same
  time, step by step on the unsynchronised maps, and says which overlaps are safe and reduce to such a history.  Four places where the code itself starts goroutines or takes locks are transition systems over all schedules: the
  safe-prime generator (C61), the party driver with its mutex (C62), Paillier's parallel square-free check (C33) and the parallel
  modulus proof check (C40).

## 2. Trusted base

* Lean 4.33 kernel; axioms `propext`, `Classical.choice`, `Quot.sound` only (`AXIOMS.md`, produced by `#print axioms` on every listed
  theorem; no own axioms, no compiled evaluation).
* The faithfulness of the hand transcription Go → Lean.
* The table of precomputed points in `Model/SecpTable{0..3}.lean` is the base64+zlib constant of `package/…/btcec/v1/secp256k1.go`
  decoded by `tools/gen_secp_table.py`; what the theorems need of it (every entry is the right multiple of G) is proved, so a wrong
  decoding could only make the proof fail.
* The semantics of the Go standard library (math/big, crypto/rand.Int, encoding/hex, base64, encoding/json, strconv, strings, sort) as read from
  its documentation and source, and of `decred/dcrec/edwards/v2` and `agl/ed25519/edwards25519` (not in the repository): group law,
  encoding and verification equation of the library are modelled mathematically.

### Modelled
common/{hash,hash_utils,int,random,safe_prime,slice}.go; crypto/ecpoint.go, crypto/utils.go, crypto/config.go; crypto/{schnorr,paillier,modproof,dlnproof,
encproof,logproof,commitments,ckd}; crypto/alice/utils, crypto/alice/paillier (Encrypt, Decrypt, Add, MulConst, key generation, ring-Pedersen
parameters), crypto/alice/zkproof (integer factorization, ring-Pedersen parameter proof); tss/{curve,message,params,party,party_id,peers,round,wire}.go;
eddsacmp/keygen and eddsacmp/onsign completely; eddsa.go; package/…/btcec/v1 {field,btcec,precompute,pubkey}.go as far as reachable, and its {signature,privkey,ciphering}.go (exported, not called by the rounds;
crypto/ecdsa.Verify, HMAC-SHA256, SHA-512 and AES are parameters or modelled from their documentation);
package/…/btcec/v2 {curve,pubkey,privkey}.go as far as schnorr/ and schnorr/musig2/ use them, and these two completely (in go.mod by a replace
directive, exported, not called by the rounds). There the arithmetic of `decred/dcrec/secp256k1/v4` (not in the repository) is taken as the
group and the residue field, and RFC 6979 nonces and the tagged hash are parameters.

### Not modelled
Logging; texts of quoted lower-level errors; the protobuf runtime beyond the wire format of the seven message types;
timing, memory, data races other than on the maps of parties (a step on a party object is atomic in C102); the generators of vendored btcec (gensecp256k1.go, genprecomps.go);
Sign, SignCompact and RecoverCompact of btcec/v2/ecdsa and the other wrappers of decred in v2; plain accessors; test files.

## 3. Properties: model and proof

| ids | model (`Model/…`) | theorems (`Props/…`) | proof |
|---|---|---|---|
| C01-C07 | Go, Common | Common, GobExact | preimages of the hashes are parsed from the end; rand.Int over a tape by induction; residues |
| C08, C09 | PartyID | PartyID | sortedness + permutation; a sorted duplicate-free list is unique, so the sorting algorithm does not matter |
| C10-C12 | KeygenOps, OnsignOps | World | both registries under arbitrary interleaved calls; frame lemmas, non-interference by induction on histories |
| C13-C17, C22 | Keygen | Keygen, KeygenRounds, KeygenApi | exact success/panic conditions of every call; invariant of all reachable states |
| C18-C20 | Keygen | KeygenRounds, KeygenApi | loop induction over peers; what round 3/4 success implies, for every history |
| C21 | KeygenNet | KeygenHonest | network invariant for n parties, every schedule; progress measure |
| C23-C27 | EC, PointJson | EC, GobExact, Ed25519Order, PointJson | lawful curve homomorphism; byte-level round trips |
| C28, C29 | Schnorr | Schnorr | group algebra; extraction in ZMod N |
| C30-C33 | Paillier | Paillier, PaillierKey | binomial expansion mod N², Carmichael; goroutine schedule as a permutation |
| C34 | AlicePaillier | AlicePaillier, AlicePaillierEx | bridge to C30, homomorphic operations with rerandomisation |
| C35-C39 | RangeProofs | RangeProofs, RangeProofsBind, RangeProofsEx | exponent laws in (Z/n)*, two-transcript extraction, witnesses for crashes and missing bindings |
| C40, C41 | ModProof | ModProof, ModProofComplete, ModProofSound | quadratic residues and Jacobi symbols, CRT roots; explicit forgery |
| C42 | Dln | Dln, DlnCrash | exponent laws; serialisation by induction; crashes by induction over the entries |
| C43 | RingPed | RingPed | same; explicit forgery |
| C44 | Factor | Factor | same |
| C45, C46 | Commitments | Commitments | injective framing; parser induction |
| C47, C48, C70 | Ckd | Ckd, CkdBip32, CkdSecp | path induction, group homomorphism, comparison with BIP32's CKDpriv/CKDpub |
| C49 | ExtKey | ExtKey, ExtKeyEx, Base58 | base58check and field layout, point decompression; uniqueness of numerals without leading zero |
| C50-C54, C56 | Onsign, OnsignOps, EdVerify | Onsign, OnsignNew, OnsignHistory | exact conditions of every call; what a released signature satisfies in every reachable state |
| C55 | OnsignNet | OnsignSetup, OnsignHonest, OnsignHonestEx | network invariant; a complete concrete session with Paillier keys meets the hypotheses |
| C57, C58, C67 | Ed25519 | Ed25519, Ed25519Order | Edwards law, encodings, Pratt certificates, order of the group |
| C59 | SaveData | SaveData | in-place writes to the shared array |
| C60, C61 | SafePrime | SafePrime, SafePrimeSieve, SafePrimeStop | Pocklington; transition system with buffered channels, deadlock witness |
| C62 | Party | Party | transition system of threads and a mutex; invariants, progress |
| C63 | Wire | Wire, GobExact | wire-format parser inverts the encoder |
| C64, C69 | Params | Params | finite maps, round bookkeeping |
| C65, C66 | AliceUtils, AlicePrime, Xor | AliceUtils, AlicePrimeSize | arithmetic; whole-table computation for the sieve |
| C68 | Api | Api | field-wise specification; JSON text grammar |
| C71 | NTilde | NTilde | number theory; loop that never ends |
| C72 | SecpField | SecpField | limb bounds and values, carries; addition chains for inverse and root |
| C73, C74 | SecpCurve, SecpTable*, SecpS256 | SecpCurve | Jacobian formulas represent Mathlib's group; prime order by Hasse-free counting argument (`Lemmas/SecpOrder`) |
| C75 | SecpPubkey | SecpPubkey | byte layouts, square roots |
| C76 | Json, SaveJson, SaveAny | SaveJson, SaveAny | a parser for JSON text inverts the printer; prefixes by an extension lemma for the parser |
| C77 | all of Keygen, SaveJson, Ckd, Onsign | EndToEnd, EndToEndEx | composition: a finished key generation (C21, with losses C118) stored and read back (C76) meets the hypotheses of C55 (with losses C116); the verification key by C47. EndToEndEx runs both protocols for two parties |
| C78 | Onsign, OnsignOps | NonceReuse, NonceReuseEx | the answer read off round 3; frame lemmas for every call on another or the same party; for the attack an honest session with the same own draws and other peer draws is delivered to one party after its third round, and a linear equation modulo the order is solved. NonceReuseEx is a two-party case |
| C79 | Onsign, OnsignOps, OnsignNet | Replay, ReplayEx | the session that mixes one party of the second with the peers of the first is honest; its messages are the recorded ones, so the invariant of C55 carries the party to its answer. ReplayEx: two parties, two messages |
| C80 | Keygen, KeygenOps, KeygenNet | Broadcast, Equivocation | what calls after round k leave alone (own share, commitments, public shares) composed with the openings of C18; framing makes equal digests equal openings or a collision. Equivocation: two good sessions that differ in one root key, the messages of the others are equal; toy example with keys 6G and 7G |
| C81 | Keygen, KeygenOps, KeygenNet | Blame, Framing | an error that names j is the error of loop step j, and an honest j's messages satisfy that step (framing, Schnorr completeness, equal xor of the contributions). Framing: two good sessions that differ in one party's draws; toy example in which party 0 blames party 1 |
| C82 | Onsign, OnsignOps | SignBlame, SignBlameEx | as C81: the error of a loop step names its index; an honest peer's ciphertext and proofs pass that step (completeness of the encryption proof for round 2, the peer's own check of its round-2 proof for round 3). SignBlameEx: every honest session meets the hypotheses, at the moment each party is about to run the round |
| C83 | Onsign, OnsignOps, OnsignNet | LastRound, SignBlameEx | frame lemma for storing calls; the verification equation has one solution below the order (order of the base point, injective encoding); the running sum as a sum modulo the order. Toy example: one of the shares 1 and 2 is wrong |
| C84 | Ecdsa | Ecdsa | Verify and Sign reduced to integer multiples in the group (C73, C74); inverses modulo the prime order; the HMAC loops as a recursively defined candidate sequence, first-candidate argument by induction on the fuel |
| C85 | Ecdsa | Der | inversion of the parser's monadic code (what each successful step says), both directions; lengths below 256 by arithmetic; `IsDerInt` is a separate specification (minimal, non-negative) |
| C86 | Ecdsa | Compact | `recover_spec`: what iteration i computes is the solution Q of s·R = e·G + r·Q for the i-th point with x ≡ r; uniqueness from parity and range of x |
| C87 | Ecdsa | Ecdh | group order and injectivity of coordinates; no point has x = 0 because 7 is no square modulo P (Euler's criterion, computed) |
| C88 | Ecies | Ecies | `decrypt_form`: Decrypt on a string cut into its fields; CBC round trip by induction on blocks; MAC and AES as parameters with `Sound` |
| C89 | Common, AliceUtils | Unbiased, UnbiasedSum, UnbiasedAlice, UnbiasedSquares | exchange two values in every chunk of the reader's bytes: a length-preserving involution that exchanges the two outcomes; exact count per number of chunks and the geometric series for the probabilities 1/n and 1/phi(n); squares by equal fibres of squaring on the units |
| C90 | Schnorr, Onsign | Transcripts, SchnorrHiding | `C29_verify_exact` and injectivity of scalars below the order; signing from C78's form of the answer |
| C91 | Keygen, KeygenNet | Transcripts | C21's invariants for the session with one contribution replaced; xor and sum are bijections in each argument |
| C92 | Onsign, EdVerify | SigUnique | the encoding is injective, B has prime order; the records from C54 |
| C93 | Messages, Wire, Party, EC | Messages | cases over the seven types; the multiples of B have y ≠ 0, and x = 0 only for the neutral element (order of B is an odd prime); C15/C51/C63 |
| C94 | Bip340 | Bip340 | points of C73's group as a vector space over Z/n; every x-only key has one even-y point; verification equation unfolded |
| C95 | Bip340 | Bip340 | sign flips as factors ±1; induction over the retry loop |
| C96 | Musig2 | MusigKeys | the coefficient only depends on the sorted list of encodings; induction over the tweaks with the invariant final = g·P + t·G |
| C97 | Musig2 | MusigSign, MusigHonest | each verified partial signature is a linear equation; their sum, with C96's accumulators, is the equation of C94 |
| C98 | Musig2 | MusigHonest | length prefixes make the hashed strings injective; aggregation is a sum over parsed points |
| C99 | MusigSession | MusigSession, MusigFinal, MusigStuck, MusigRun | invariants of the context and of each session over all histories of calls; induction over the calls of an intended run |
| C100 | EcdsaV2 | EcdsaV2 | inversion of the parser's checks in both versions |
| C101 | TssError | TssError | unique decoding of the text, part by part; induction over the culprits |
| C102 | Calls | Calls, CallsApi | linearization: invariant relating the objects in the middle of a call to the registry of the history so far; the API functions are instances |
| C103 | Restart | Restart | histories of calls and restarts reduce to the calls since the last restart; creation does not look at the state, then non-interference (C10) |
| C104 | Onsign, Keygen | Retry, RetryEx, RetryKeygen | a relation between the party with and without the failed tries (fields that the round overwrites may differ) is kept by message calls and failed tries and makes the outcome equal; round 3 of key generation: the state it stops in, computed |
| C105 | Api, JsonText, Json | ApiJson | UTF-8 of Lean's library against the model's DecodeRune; induction over the text the way it is read; the model of json.Unmarshal run on the written text |
| C106 | RangeProofs, AlicePaillier, Onsign | RangeSound, RangeRounds | raise the verified relation to the power λ and compare exponents of 1+N; subtract two answers; count fractions by an injection; C53 for the rounds |
| C107 | RangeProofs, AliceUtils | RangeHiding | change of variables from draws to responses is injective; count the draws it moves out of the box; the message built by the code computed field by field |
| C108 | RingPed, Dln | RingPedHiding | bijection between draws and right guesses (response and challenge bit); the messages built by the code computed round by round |
| C109 | ModProof, Factor | ModProofHiding, FactorHiding | bijection between challenges and (square, bits), the inverse of n and of 4 being powers; shift of the mask for the factorization proof |
| C110 | Readers, Messages | Readers | protobuf round trip of each proof, round trip of numbers and points, the wire round trip of C93 |
| C111 | Onsign, OnsignNet | Ordinary | from the invariant of honest runs (C55): sums of shares modulo the group order, order of the base point |
| C112 | Onsign, OnsignOps | ShareUse | noninterference: every step commutes with replacing the share; induction on the history |
| C113 | Keygen, KeygenOps, Onsign, Ckd | RootResidue, RootResidueEx | noninterference: every step commutes with replacing the share by another representative (only round 1 and 3 read it, both modulo the order); induction on the history; the first derivation step forgets the representative; FillBytes refuses 2^256 and more |
| C114 | Onsign, OnsignNet, SaveData, Ckd | Absent, AbsentEx | the invariant of honest runs (C55) for signers that are the first of the parties, whose group key A is the sum of all shares: the final verification equation holds iff c*(absent shares) = 0 modulo the order of the base point; subset building indexes the refresh data by stored position, beyond their length |
| C115 | Onsign, OnsignNet | Divided, DividedEx | the invariant of honest runs (C55) with a message and a key per signer: the messages of the first three rounds do not depend on them, and the final verification equation of signer i holds iff sum c_j x_j = c_i X_i modulo the order of the base point |
| C116 | Onsign, OnsignNet | Rejoin, RejoinEx | runs with losses: the invariant of honest runs (C55) for the session with the draws in use holds again after a loss, because what a signer holds after round 1 does not depend on the draws of the others; the price by C78's recovery |
| C117 | Keygen, KeygenOps, KeygenNet, Schnorr | KeygenTwice | frame lemma: no call but creation, removal and round 1 changes nonce, share and place; two linear equations modulo the prime order; for the honest party the invariant of C21 and the cancellation of the xor (C19) |
| C118 | Keygen, KeygenOps, KeygenNet | KeygenRejoin | the invariant of C21 is restored, for the session with the new draws, after every loss; a party that has run round 3 keeps the facts of stage 1 only; the limit by running round 2 and 3 on explicit states; the last word by the cancellation of the xor |
| C119 | Onsign, OnsignOps | Balance, BalanceEx | the verification equation of the last call, written with discrete logarithms of what the peers sent, is a linear equation modulo the group order; two answers for two challenges make it solvable for a share. BalanceEx: every honest session meets the hypotheses |
| C120 | Ckd, Onsign, OnsignOps | PathLeak, PathLeakEx, PathLeakSecp | induction over the components with a tweak function that has no secret argument; composed with C50 (creation), C78 (two answers) and C113 (residue). PathLeakEx: the toy session |
| C121 | Keygen, KeygenOps, Onsign, OnsignOps, Schnorr | AnswerHides, AnswerHidesEx, AnswersMany, AnswersManyEx | a bijection between nonces and answers (translation by c·x modulo the order) preserves the view; the answers that the calls return are read off the round lemmas of C117 and C78. AnswersMany: the bijection session by session, by induction on the sessions. Ex: every party of the honest sessions |
| C122 | Paillier | PaillierSound | kernel of the N-th power map on the units by Cauchy's theorem; product over the 13 challenges; bijectivity when N is prime to phi(N) |
| C123 | EC, CurveReg | CurveReg | induction over the history; the order of map iteration is any permutation of the registry |
| C124 | Messages, MsgText | MsgText | the text is cut at its delimiters (lemmas of C101); congruence for the converse; delivery by C93 |
| C125 | PartyID, TestIds, Common | TestIds | the loop as a map over a range; uniqueness of the sorted permutation (C08); interval count of the bad draws |
| C126 | Dln | DlnSound | two answered strings give h1^a = h1^b*h2; h1 is a unit of finite order, so h2 is a power; the forged proof with an idempotent base by C42 |
| C127 | Keygen, Schnorr, Onsign | Torsion | index of a share over the subgroup; the accepted challenges are a residue class (C29); the structure of the Ed25519 group (C67) gives the indices; the verification equation (C54) gives the signatures |
| C128 | Text | TextExact | texts as numerals in base 10, 16 and 64 over written-down alphabets; recursion on the text in steps of 1, 2 and 4 characters |
| C129 | Wire | WireGrammar | grammar as an inductive relation; soundness by induction on the fuel, completeness by induction on derivations; UTF-8 against Lean's utf8EncodeChar |
| C130 | Json | JsonGrammar | RFC 8259 as inductive relations (numbers, strings, values with a nesting bound); soundness by induction on the fuel, completeness by induction on derivations |
| C131 | PointJson, SaveJson | PointText | the fold over the members against "last member that is not null", names against an inductive relation of spellings; C130 for the text, C128 for the integers |
| C132 | SaveAny, SaveJson | SaveText | as C131 for each of the eight fields: a relation "last member of that name", and one step lemma per field |

No property was found inexpressible; none is only partly proved.  Where a property in its natural form is false of the code, the
statement in `properties.jsonl` says what the code does, the failing case is a theorem with a concrete witness, and it is listed next.

## 4. Findings and deviations

Proved of the model, hence claims about the code:

* **Key generation.** A root key `""` gives share 0 (C22).  An accepted message is stored before it is parsed, so a bad message
  overwrites a good one (C16).  Round 3 is not repeatable (C19), and with three or more parties
  not retryable either: a failed call leaves contributions mixed in, the next one takes them out, and the peers reject the honest party (C104).  Ids that differ in sign collide (C08).
  What the parties received in round 1 is never compared, so a peer that equivocates makes honest parties finish, without any error, with different
  group keys (C80), or blame each other: an error naming an honest party proves nothing against it (C81).
* **Signing.** Leading zero bytes of the message are not signed (C56).  The session id is a constant, so messages are replayable between
  sessions (C79).  The stored group key is not compared with the sum of the shares at creation (C54 says which key counts).  NewLocalParty
  indexes key-generation data by the *signing* index.  Unparsable proof numbers and ciphertexts that are not units crash the verifier (C37).
  A short refresh payload is read beyond its end into the decoding buffer (C50).  Round 3 before round 1 uses the root key and a zero nonce.
  Round 3 may be repeated with the same nonce after other round-1 and round-2 messages were accepted and round 2 was run again; the two
  answers reveal the party's share (C78).
  The accept calls never run ValidateBasic: a message without any field is accepted (C93).
  A derivation error for a peer's public key crashes the creating call (C48, C50).
  Round 1 does not check the encryption proofs it hands out (round 2 does check its own), so an unlucky mask gets an honest party named (C35, C82).
  A wrong share makes the last call fail, but nothing says whose share it was (C83).
* **Range proofs.** The log* challenge omits the x-coordinates of the points and the ring-Pedersen bases, so a proof also holds for the negated
  statement (C39); an honest range proof can fail (C35); the encryption-range verifier accepts a ciphertext that is a multiple of the modulus (C106); ring-Pedersen bases are not checked to be units.
* **Proof systems not called by the rounds.** The modulus proof accepts forged proofs when W has Jacobi symbol 0 (C40_forgery) and crashes on even
  N; the ring-Pedersen parameter proof derives each challenge bit from its own commitment only, so it is forgeable (C43_forgery); the
  factorization proof accepts any modulus of the right shape (C44); dlnproof crashes on a missing response (C42).
* **Paillier.** A nil proof entry makes the parallel check schedule dependent, and a negative modulus hangs it (C33).
* **Safe primes.** The search can hang after it has succeeded (C61_can_hang); sieve offsets accumulate (C60); the sieve table of crypto/alice/utils/prime.go
  misses 313 and 547 and one product is 91 times too large (C66); GetRandomPrimeInt(1) never returns (C71); sizes 3..10 never return (C66).
* **Registries.** The maps of parties have no lock: creating or removing a party while any other call runs can stop the process; two removals can both
  report success (C102).
* **Key data.** Points of secp256k1 are accepted in the stored record (C76).  UnmarshalJSON of a point crashes on the text `null` (C27).
* **Party driver.** A panic inside a round leaves the mutex locked for ever; a finished party can be started again (C62).  OldAndNewParties shares
  the old committee's array (C64).
* **Derivation and extended keys.** Hardened derivation serialises the private key unpadded, so it differs from BIP32 for about 1 key in 256 (C70).
  Hardened paths crash public derivation; an index of 2^32 or more is truncated (C48).  Extended keys written by the library have a one-byte
  version and never parse back; a 35-byte chain code makes one parse as something else (C49).
* **secp256k1.** IsOnCurve looks only at the first 32 bytes of |x|, |y| (C73); unreduced x coordinates are accepted (C75); multiples of the order give a nil
  point (C74).  Uncompressed keys are also accepted with first byte 5 (C75).
* **ECDSA, DER, ECIES of the vendored btcec.** Verify accepts (r, N−s) (C84); keys that agree modulo 2^256 share their nonces (C84); the DER parser
  ignores what follows the sequence (C85); RecoverCompact returns the point at infinity without an error (C86); PrivKeyFromBytes takes 0 and
  multiples of the order (C87); the shared secret drops leading zeros and ignores the sign of the key (C87); padding is only looked at in its last byte (C88).
* **BIP 340 and MuSig2 of the vendored btcec/v2.** Verify and Sign refuse challenges at or above the group order, which BIP 340 reduces (C94, C95);
  Sign leaves the caller's private key negated when its public key has odd y (C95).  AggregateKeys returns the point at infinity as a key (C96).
  A key of odd y in the set, or cancelling nonces, let every partial signature verify and the combination fail (C97); Decode takes a
  truncated partial signature for 0 without an error, and the options of CombineSigs panic on a bad tweak (C97).  GenNonces does one Read and
  ignores how much it delivered (C98).  Sessions: PublicNonce after Sign, completing the signatures before Sign, NewSession after
  WithNumSigners(1), and a negative number of signers panic; a lone signer never signs; a malformed last nonce or one wrong partial signature
  cannot be replaced; a session that signs last never computes the final signature; WithSortedKeys on Sign reorders the key set of the whole
  context; a nonce given to WithPreGeneratedNonce can be in two sessions; the caller's own key with odd y is refused (C99).
* **Helpers.** RandomAbsoluteRangeInt ranges over [1−n, n+1]; ExtnedHashOuput separates its parts by a comma that may occur in them; EnsureRank overflows (C65).
  ParseSecrets ignores a cut-off last part and crashes on a negative length (C46).  Sign is not bound by the integer hashes (C02, C45).
* **JSON results.** Different results with the same JSON text when keys are not UTF-8 (C105).
* **Message readers.** Key generation messages carry no Paillier or ring-Pedersen numbers or proofs; the readers of these answer 0 or an empty proof
  without an error (C110).
* **Long root keys.** A root key of more than 32 bytes passes key generation; the save data then crash NewLocalParty of the signing package (C113).
* **No subsets.** The subset of signers that NewLocalParty takes is of no use: without all the parties of key generation the last call always fails the
  signature check, after three successful rounds; a subset that is not a prefix in index order panics at creation, because the refresh data are
  allocated for `partyCount` parties and read at the stored position (C114).
* **Disagreement shows late.** Signers that were created with different messages or paths notice nothing in three rounds; only the signature check of
  the last call fails, with an error that names nobody (C115): nothing that is sent in rounds 1 and 2 contains or commits to the message or the key.
* **Coming back after a crash.** Nothing marks a session as finished with its nonce: after a signer was lost the others can go back to round 2 and
  complete, but those that had run round 3 give away their shares (C116, C78).
* **Repeating round 3 of key generation.** It mixes the peers' randomness in again, so a mere retry of a call that succeeded answers a second challenge
  with the same Schnorr nonce; the two answers reveal the root key to everybody who sees them (C117).
* **Coming back in key generation.** A party that has run round 3 and repeats only round 2 sends the common randomness as its own contribution and is
  named as the culprit by its peers; a party that claims a loss after round 2 can choose the common randomness (C118).
* **One path gives all.** Signing accepts only paths without hardened components, so a share leaked on one path (C78, C116, C119) is the share on all
  paths (C120).
* **Curve names.** GetCurveName compares Go types only, so two registered curves of one type are confused, depending on the iteration order of a map (C27, C123).
* **Printing a received message.** The accept functions parse messages without a sender; String of such a message dereferences nil (C124). Nothing
  in the code base prints them.
* **Mock ids.** GenerateTestPartyIDs can give two parties one key, for count - 2 of the 2^256 - 1 draws (C125).
* **Ring parameters with a base that is no unit.** The verifier of the discrete-logarithm proof does not check that h1 is prime to N; an idempotent base has an always accepted
  proof of a false statement (C126).
* **Shares with a torsion part.** Rounds 3 and 4 of keygen do not test that a public share is in the prime-order subgroup. A share with a part of order d passes for one residue class of
  challenges modulo d; the group key then leaves the subgroup and d - 1 of d signings fail without a culprit (C127).
