{"id": "C01", "title": "VarInt write/read round trip", "statement": "Writing any uint64 with WriteVarInt and reading the bytes back with ReadVarInt, whatever bytes follow, returns the same number, no error, and leaves exactly the following bytes unread.", "quantifier": "all 2^64 values and all following byte strings", "why_tests_cant": "2^64 values times unbounded suffixes; a test samples boundaries only", "anchors": ["wire/common.go:ReadVarInt", "wire/common.go:WriteVarInt"]}
{"id": "C02", "title": "VarInt decoding is canonical", "statement": "Whenever ReadVarInt succeeds on a byte stream and returns v, the bytes it consumed are exactly the bytes WriteVarInt(v) writes; so no value has two accepted encodings and no encoding is a proper prefix of another.", "quantifier": "all byte streams", "why_tests_cant": "needs every malformed or overlong encoding, not a sample", "anchors": ["wire/common.go:ReadVarInt", "wire/common.go:WriteVarInt"]}
{"id": "C03", "title": "VarIntSerializeSize is exact", "statement": "For every uint64, VarIntSerializeSize equals the number of bytes WriteVarInt emits, and is at most 9 (MaxVarIntPayload).", "quantifier": "all uint64 values", "why_tests_cant": "2^64 values", "anchors": ["wire/common.go:VarIntSerializeSize", "wire/common.go:WriteVarInt", "wire/common.go:MaxVarIntPayload"]}
{"id": "C04", "title": "ReadVarInt is total", "statement": "ReadVarInt on any byte stream either returns a value or an error, never panics, and on a stream that is a proper prefix of an encoding it returns an error.", "quantifier": "all byte streams", "why_tests_cant": "all truncations of all streams", "anchors": ["wire/common.go:ReadVarInt"]}
{"id": "C05", "title": "VarBytes round trip", "statement": "For any byte string b shorter than 2^63 and any following bytes, ReadVarBytes after WriteVarBytes returns b and leaves the following bytes unread, whatever maxAllowed is.", "quantifier": "all byte strings, suffixes and limits", "why_tests_cant": "unbounded data", "anchors": ["wire/common.go:ReadVarBytes", "wire/common.go:WriteVarBytes"]}
{"id": "C06", "title": "ReadVarBytes honours its size limit", "statement": "ReadVarBytes returns an error whenever the announced length is greater than maxAllowed (as its documentation says), before reading or allocating the payload.", "quantifier": "all byte streams and all limits", "why_tests_cant": "a test would need an oversized message for every limit; the exhaustion case cannot be run", "anchors": ["wire/common.go:ReadVarBytes"]}
{"id": "C07", "title": "The free list never shares a buffer", "statement": "Under every interleaving of any number of goroutines doing wire reads and writes, no scratch buffer is ever held by two goroutines at once or held while sitting in the free list, the list never exceeds 1024 entries, and every borrowed buffer has at least 8 bytes.", "quantifier": "all schedules and all numbers of goroutines and operations", "why_tests_cant": "schedules cannot be enumerated by tests", "anchors": ["wire/common.go:binaryFreeList", "wire/common.go:Borrow", "wire/common.go:Return"]}
{"id": "C08", "title": "Wire results do not depend on stale buffers", "statement": "The bytes written and values read by the fixed-width wire primitives are a function of their arguments and the stream only: whatever a recycled buffer contained before has no effect, also under concurrent use.", "quantifier": "all previous buffer contents, all schedules", "why_tests_cant": "stale contents and schedules are not controllable in tests", "anchors": ["wire/common.go:Uint8", "wire/common.go:Uint16", "wire/common.go:Uint32", "wire/common.go:Uint64", "wire/common.go:PutUint8", "wire/common.go:PutUint16", "wire/common.go:PutUint32", "wire/common.go:PutUint64"]}
{"id": "C09", "title": "ECPoint encoding round trip", "statement": "For every point with non-negative coordinates, ReadECPoint after WriteECPoint returns the same coordinates and leaves the following bytes unread.", "quantifier": "all coordinate pairs, all suffixes", "why_tests_cant": "unbounded integers", "anchors": ["crypto.go:WriteECPoint", "crypto.go:ReadECPoint"]}
{"id": "C10", "title": "big.Int encoding round trip", "statement": "For every integer, positive, zero or negative, ReadBigInt after WriteBigInt returns it and leaves the following bytes unread.", "quantifier": "all integers, all suffixes", "why_tests_cant": "unbounded integers", "anchors": ["crypto.go:WriteBigInt", "crypto.go:ReadBigInt"]}
{"id": "C11", "title": "Proof serialization round trip (fixed-shape proofs)", "statement": "For GSPFS, equivalence, consistency and disjunctive proofs with non-negative point coordinates and any integer scalars, deserializing Bytes() gives back an equal proof and no error.", "quantifier": "all proofs of the four types", "why_tests_cant": "unbounded field values", "anchors": ["gspfs.go:Bytes", "gspfs.go:NewGSPFSProofFromBytes", "equivalence.go:Bytes", "equivalence.go:NewEquivalenceProofFromBytes", "consistency.go:Bytes", "consistency.go:NewConsistencyProofFromBytes", "disjunctive.go:Bytes", "disjunctive.go:NewDisjunctiveProofFromBytes"]}
{"id": "C12", "title": "ABC proof serialization round trip", "statement": "For every ABC proof with non-negative coordinates and any scalars (including negative ones), NewABCProofFromBytes(Bytes()) gives back an equal proof, with its nested disjunctive proof, and no error.", "quantifier": "all ABC proofs", "why_tests_cant": "unbounded field values and nested lengths", "anchors": ["abc.go:Bytes", "abc.go:NewABCProofFromBytes"]}
{"id": "C13", "title": "Range proof serialization round trip", "statement": "For every range proof with any number of tuples, NewRangeProofFromBytes(Bytes()) gives back an equal proof and no error.", "quantifier": "all range proofs of every length", "why_tests_cant": "every tuple count", "anchors": ["rangeproof.go:Bytes", "rangeproof.go:NewRangeProofFromBytes"]}
{"id": "C14", "title": "Truncated ABC proofs are rejected", "statement": "NewABCProofFromBytes returns an error (no panic, no proof) on every proper prefix of the serialization of an ABC proof.", "quantifier": "all ABC proofs and all truncation points (crash or short read at any byte)", "why_tests_cant": "every truncation point of every proof", "anchors": ["abc.go:NewABCProofFromBytes"]}
{"id": "C15", "title": "Deserializers never panic on hostile bytes", "statement": "The six New...FromBytes functions return for every byte slice; none of them panics.", "quantifier": "all byte slices", "why_tests_cant": "all inputs", "anchors": ["crypto.go:ReadBigInt", "gspfs.go:NewGSPFSProofFromBytes", "rangeproof.go:NewRangeProofFromBytes", "wire/common.go:ReadVarBytes"]}
{"id": "C16", "title": "Deserializers report malformed input", "statement": "The deserializers of GSPFS, equivalence, consistency, disjunctive and range proofs return a non-nil error when the bytes are truncated, as the ABC one does, so that a caller who checks the error can call Verify safely.", "quantifier": "all byte slices", "why_tests_cant": "all truncations", "anchors": ["gspfs.go:NewGSPFSProofFromBytes", "equivalence.go:NewEquivalenceProofFromBytes", "consistency.go:NewConsistencyProofFromBytes", "disjunctive.go:NewDisjunctiveProofFromBytes", "rangeproof.go:NewRangeProofFromBytes"]}
{"id": "C17", "title": "ECPoint.Equal is equality of points", "statement": "Equal returns true exactly when both points are the same point.", "quantifier": "all pairs of curve points", "why_tests_cant": "needs all pairs; the tests never compare a point with its negation", "anchors": ["crypto.go:ECPoint.Equal"]}
{"id": "C18", "title": "Equal decides equality up to sign", "statement": "For points on the curve (identity included) Equal returns true exactly when the points are equal or one is the negation of the other.", "quantifier": "all pairs of curve points", "why_tests_cant": "all pairs of a 2^256 set", "anchors": ["crypto.go:ECPoint.Equal"]}
{"id": "C19", "title": "Mult is scalar multiplication", "statement": "For every curve point P and integer s, Mult(P, s) is s times P.", "quantifier": "all curve points and all integers", "why_tests_cant": "tests use a handful of points and only the G and H generators", "anchors": ["crypto.go:Mult", "btcec/btcec.go:ScalarBaseMultH", "btcec/secp256k1H.go"]}
{"id": "C20", "title": "Mult depends on the scalar only modulo N", "statement": "For every point P and integers s, t congruent modulo the group order (negative ones included), Mult(P, s) and Mult(P, t) return the same point; Mult on a point with both coordinates nil returns such a point.", "quantifier": "all points, all congruent pairs of integers", "why_tests_cant": "all integers", "anchors": ["crypto.go:Mult"]}
{"id": "C21", "title": "Add, Sub and Neg are the group operations", "statement": "For all curve points, the identity (0,0) included, Add, Sub and Neg return the group sum, difference and negation as canonical coordinates, in every special case (identity operands, equal points, opposite points).", "quantifier": "all pairs of curve points", "why_tests_cant": "2^512 pairs", "anchors": ["crypto.go:Add", "crypto.go:Sub", "crypto.go:Neg"]}
{"id": "C22", "title": "Pedersen commitments are homomorphic", "statement": "Add(PedCommitR(v1,r1), PedCommitR(v2,r2)) equals PedCommitR(v1+v2, r1+r2), and likewise with Sub, for all integers.", "quantifier": "all values and blinding factors", "why_tests_cant": "unbounded integers", "anchors": ["crypto.go:PedCommitR", "crypto.go:Add"]}
{"id": "C23", "title": "Open accepts honest openings", "statement": "Open(v, r, PedCommitR(v, r)) is true for all integers, and Open depends on v and r only modulo N.", "quantifier": "all values and blinding factors", "why_tests_cant": "unbounded integers", "anchors": ["crypto.go:Open", "crypto.go:PedCommitR"]}
{"id": "C24", "title": "Open accepts only the committed opening", "statement": "If Open(v', r', PedCommitR(v, r)) is true then v' = v and r' = r modulo N, unless the discrete logarithm between the two commitment bases becomes computable from these four numbers.", "quantifier": "all pairs of openings", "why_tests_cant": "all quadruples of 256-bit scalars", "anchors": ["crypto.go:Open", "crypto.go:ECPoint.Equal"]}
{"id": "C25", "title": "Pedersen commitments are perfectly hiding", "statement": "For every value v, the map from blinding factors in [0,N) to PedCommitR(v, r) is a bijection onto the group; hence the commitment to any two values has the same distribution.", "quantifier": "all values", "why_tests_cant": "a statement about distributions", "anchors": ["crypto.go:PedCommit", "crypto.go:PedCommitR"]}
{"id": "C26", "title": "VerifyR accepts exactly the commitments of r", "statement": "VerifyR(rt, pk, r) is true exactly when rt is r times pk or its negation; in particular VerifyR(CommitR(pk, r), pk, r) is true for all integers r.", "quantifier": "all points and integers", "why_tests_cant": "all inputs", "anchors": ["crypto.go:CommitR", "crypto.go:VerifyR"]}
{"id": "C27", "title": "GSPFS completeness", "statement": "If A = x*base then NewGSPFSProofBase succeeds and the proof verifies, for every base point, x, randomness and hash function.", "quantifier": "all bases, x, random draws and hash functions", "why_tests_cant": "random draws and points cannot be enumerated; the failing points have negligible probability in tests", "anchors": ["gspfs.go:NewGSPFSProofBase", "gspfs.go:Verify", "crypto.go:Mult"]}
{"id": "C28", "title": "GSPFS prover refuses a wrong witness", "statement": "NewGSPFSProofBase returns an error and no proof whenever A is neither x*base nor its negation.", "quantifier": "all bases, points and x", "why_tests_cant": "all inputs", "anchors": ["gspfs.go:NewGSPFSProofBase"]}
{"id": "C29", "title": "GSPFS special soundness", "statement": "From two accepting proofs for the same A, base and random commitment with challenges c and c' where c is neither c' nor -c' modulo N, x with A = x*base is computed by an explicit formula. In these equations -G is read as G, and H and -H as the base of the H table, as Mult multiplies these points instead (C19).", "quantifier": "all pairs of accepting proofs, the statement and the base being points of the curve, the random commitment any pair of integers (for other points see C156)", "why_tests_cant": "adversarial proofs", "anchors": ["gspfs.go:Verify"]}
{"id": "C30", "title": "GSPFS proofs are simulatable", "statement": "For every challenge, the pairs (random commitment, response) produced by the prover when u ranges over [0,N) are, with multiplicity, exactly those a simulator without x obtains from uniformly chosen responses; the proof therefore carries no information on x beyond A.", "quantifier": "all x, all bases at which Mult is scalar multiplication (every base but -G, H and -H), all challenges", "why_tests_cant": "a statement about distributions", "anchors": ["gspfs.go:NewGSPFSProofBase"]}
{"id": "C31", "title": "Verify results are consistent", "statement": "Every Verify method returns either (true, nil) or (false, non-nil error), also for a nil proof; it never returns true with an error or false without one.", "quantifier": "all proofs and statements", "why_tests_cant": "all inputs", "anchors": ["gspfs.go:Verify", "equivalence.go:Verify", "consistency.go:Verify", "disjunctive.go:Verify", "abc.go:Verify", "inequality.go:Verify", "rangeproof.go:Verify"]}
{"id": "C32", "title": "Equivalence completeness", "statement": "If Result1 = x*Base1 and Result2 = x*Base2 (as computed by Mult), NewEquivalenceProof succeeds and the proof verifies for every choice of randomness and every hash function.", "quantifier": "all bases, x, random draws, hash functions", "why_tests_cant": "all inputs", "anchors": ["equivalence.go:NewEquivalenceProof", "equivalence.go:Verify"]}
{"id": "C33", "title": "Equivalence prover refuses a wrong witness", "statement": "NewEquivalenceProof returns an error whenever Result1 is not plus or minus x*Base1 or Result2 is not plus or minus x*Base2. Multiples of points are those that Mult computes, which are right except at -G, H and -H (C19).", "quantifier": "all inputs", "why_tests_cant": "all inputs", "anchors": ["equivalence.go:NewEquivalenceProof"]}
{"id": "C34", "title": "Equivalence soundness up to sign", "statement": "For fixed statement and random commitments, if three distinct challenges can be answered acceptably then there is x with Result1 = x*Base1 and Result2 = x*Base2 or -x*Base2; so a statement false even up to sign is accepted for at most two challenge values per commitment. In these equations -G is read as G, and H and -H as the base of the H table, as Mult multiplies these points instead (C19).", "quantifier": "all statements and all adversarial proofs of points of the curve (for other points see C156)", "why_tests_cant": "adversarial proofs", "anchors": ["equivalence.go:Verify"]}
{"id": "C35", "title": "Equivalence proofs show equal discrete logarithms", "statement": "An EquivalenceProof cannot be produced for Result1 = x*Base1, Result2 = y*Base2 with x different from y modulo N, other than by hitting a challenge value by chance.", "quantifier": "all statements, all adversarial proofs", "why_tests_cant": "adversarial proofs; the accepted forgeries differ from honest data only in a sign", "anchors": ["equivalence.go:Verify", "crypto.go:ECPoint.Equal"]}
{"id": "C36", "title": "Equivalence proofs are simulatable", "statement": "For every challenge the prover's transcripts over all u have, with multiplicity, the same distribution as transcripts simulated without x. True statements are those with the multiples that Mult computes (C19).", "quantifier": "all x, bases, challenges", "why_tests_cant": "a statement about distributions", "anchors": ["equivalence.go:NewEquivalenceProof"]}
{"id": "C37", "title": "Consistency completeness", "statement": "If CM = PedCommitR(v, r) and CMTok = Mult(PubKey, r), NewConsistencyProof succeeds and the proof verifies for all integers v, r, public keys, randomness and hash functions.", "quantifier": "all inputs", "why_tests_cant": "all inputs", "anchors": ["consistency.go:NewConsistencyProof", "consistency.go:Verify"]}
{"id": "C38", "title": "Consistency prover refuses a wrong witness", "statement": "NewConsistencyProof returns an error whenever CM is not plus or minus PedCommitR(v, r) or CMTok is not plus or minus r*PubKey. Multiples of points are those that Mult computes, which are right except at -G, H and -H (C19).", "quantifier": "all inputs", "why_tests_cant": "all inputs", "anchors": ["consistency.go:NewConsistencyProof"]}
{"id": "C39", "title": "Consistency soundness up to sign", "statement": "For fixed statement and random commitments, from three accepting proofs with distinct challenges v and r are computed with CM = v*G + r*H and CMTok = r*PubKey or -r*PubKey, where H is the commitment base. In these equations -G is read as G, and H and -H as the base of the H table, as Mult multiplies these points instead (C19).", "quantifier": "all statements and all adversarial proofs of points of the curve (for other points see C156)", "why_tests_cant": "adversarial proofs", "anchors": ["consistency.go:Verify"]}
{"id": "C40", "title": "Consistency proofs are simulatable", "statement": "For every challenge the prover's transcripts over all (u1,u2) have, with multiplicity, the same distribution as transcripts simulated without v and r. True statements are those with the multiples that Mult computes (C19).", "quantifier": "all v, r, keys, challenges", "why_tests_cant": "a statement about distributions", "anchors": ["consistency.go:NewConsistencyProof"]}
{"id": "C41", "title": "Disjunctive completeness", "statement": "For both sides, if the result of the chosen side is x times its base, NewDisjunctiveProof succeeds and the proof verifies, whatever the other side is, for every randomness and hash function.", "quantifier": "all statements, sides, x, random draws, hash functions", "why_tests_cant": "all inputs", "anchors": ["disjunctive.go:NewDisjunctiveProof", "disjunctive.go:Verify"]}
{"id": "C42", "title": "Disjunctive prover refuses bad calls", "statement": "NewDisjunctiveProof returns an error for any side other than Left and Right and whenever the chosen result is neither x times the chosen base nor its negation. Multiples of points are those that Mult computes, which are right except at -G, H and -H (C19).", "quantifier": "all inputs", "why_tests_cant": "all inputs", "anchors": ["disjunctive.go:NewDisjunctiveProof"]}
{"id": "C43", "title": "Disjunctive soundness", "statement": "From two accepting proofs with the same commitments and different challenges, x with Result1 = x*Base1 or y with Result2 = y*Base2 is computed by an explicit formula. In these equations -G is read as G, and H and -H as the base of the H table, as Mult multiplies these points instead (C19).", "quantifier": "all pairs of accepting proofs, all statements, of points of the curve (for other points see C156)", "why_tests_cant": "adversarial proofs", "anchors": ["disjunctive.go:Verify"]}
{"id": "C44", "title": "Disjunctive proofs hide the side and the witness", "statement": "A verifier cannot tell from a DisjunctiveProof which side was proved, nor learn the witness: the proof values of a Left prover and of a Right prover have the same distribution.", "quantifier": "all statements where both sides are provable, all randomness", "why_tests_cant": "a statement about distributions; tests only check acceptance", "anchors": ["disjunctive.go:NewDisjunctiveProof"]}
{"id": "C45", "title": "ABC completeness", "statement": "With CM = v*G + ua*H, CMTok = ua*sk*H (H the commitment base), sk invertible: NewABCProof with Left when v = 0, or with Right when v is non-zero modulo N, succeeds and the proof verifies for every randomness and hash function.", "quantifier": "all v, ua, sk, random draws, hash functions", "why_tests_cant": "all inputs", "anchors": ["abc.go:NewABCProof", "abc.go:Verify"]}
{"id": "C46", "title": "ABC prover refuses a wrong side", "statement": "NewABCProof returns an error when value is zero and the side is not Left, when value is non-zero and the side is not Right, and when the nested disjunctive proof cannot be made. Multiples of points are those that Mult computes, which are right except at -G, H and -H (C19).", "quantifier": "all inputs", "why_tests_cant": "all inputs", "anchors": ["abc.go:NewABCProof"]}
{"id": "C47", "title": "ABC soundness", "statement": "Two sets of accepting ABC transcripts with distinct challenges yield v, k, l with CM = v*G + k*CMTok and C = v*B + l*H up to sign, and a witness that CMTok is a known multiple of CM or that C - G is a known multiple of H. In these equations -G is read as G, and H and -H as the base of the H table, as Mult multiplies these points instead (C19).", "quantifier": "all accepting transcripts of points of the curve (for other points see C156)", "why_tests_cant": "adversarial proofs", "anchors": ["abc.go:Verify", "disjunctive.go:Verify"]}
{"id": "C48", "title": "ABC prover does not crash", "statement": "NewABCProof returns (proof or error) for all integers value and sk.", "quantifier": "all inputs", "why_tests_cant": "the crashing inputs are single residues out of 2^256", "anchors": ["abc.go:NewABCProof"]}
{"id": "C49", "title": "Inequality completeness", "statement": "For commitments to a and b with a different from b modulo N and tokens under the same key, NewInequalityProof succeeds and verifies against the differences.", "quantifier": "all a, b, blinding factors, keys, randomness", "why_tests_cant": "all inputs", "anchors": ["inequality.go:NewInequalityProof", "inequality.go:Verify"]}
{"id": "C50", "title": "Inequality proofs show inequality", "statement": "InequalityProof.Verify accepts no proof for commitments of equal values.", "quantifier": "all accepted proofs", "why_tests_cant": "adversarial proofs", "anchors": ["inequality.go:Verify", "abc.go:Verify"]}
{"id": "C51", "title": "Inequality prover refuses equal values and does not crash", "statement": "NewInequalityProof returns an error, and does not panic, whenever a and b commit to the same value.", "quantifier": "all a, b", "why_tests_cant": "the crashing inputs are pairs congruent modulo N", "anchors": ["inequality.go:NewInequalityProof"]}
{"id": "C52", "title": "Range proof completeness", "statement": "For every value in [0, 2^40) and every randomness, NewRangeProof returns a proof that verifies against v*G + vTotal*H, where vTotal is the returned blinding factor, under every schedule of its goroutines.", "quantifier": "all values, randomness and schedules", "why_tests_cant": "2^40 values, random draws, schedules", "anchors": ["rangeproof.go:NewRangeProof", "rangeproof.go:Verify"]}
{"id": "C53", "title": "Range prover accepts exactly its range", "statement": "NewRangeProof returns an error for every value outside [0, 2^40), including negative values and 2^40 itself.", "quantifier": "all integers", "why_tests_cant": "all integers; the boundary value is accepted", "anchors": ["rangeproof.go:NewRangeProof"]}
{"id": "C54", "title": "Range verification is schedule independent", "statement": "RangeProof.Verify returns the same answer under every interleaving of its worker goroutines and channel operations, and it does not deadlock.", "quantifier": "all proofs with at most 64 tuples, all schedules", "why_tests_cant": "schedules cannot be enumerated", "anchors": ["rangeproof.go:Verify", "rangeproof.go:verifyGen"]}
{"id": "C55", "title": "Range proofs only cover 40-bit values", "statement": "A range proof accepted by Verify for a commitment shows that the committed value is below 2^40.", "quantifier": "all accepted proofs", "why_tests_cant": "adversarial proofs with other tuple counts", "anchors": ["rangeproof.go:Verify"]}
{"id": "C56", "title": "Range verification does not crash or leak", "statement": "RangeProof.Verify terminates without panicking and without leaving blocked goroutines for every non-nil deserialized proof.", "quantifier": "all proofs", "why_tests_cant": "hostile tuple counts and nil entries", "anchors": ["rangeproof.go:Verify", "rangeproof.go:verifyGen"]}
{"id": "C57", "title": "Range proofs hide the bits", "statement": "The tuples of a range proof do not reveal the bits of the value: the response for a 0 bit and for a 1 bit have the same range and distribution.", "quantifier": "all values and randomness", "why_tests_cant": "a statement about distributions", "anchors": ["rangeproof.go:proofGenB"]}
{"id": "C58", "title": "The challenge depends on the concatenation, and is in range", "statement": "GenerateChallenge is the hash of the concatenation of its arguments reduced modulo N: it is in [0,N) and splitting or merging arguments does not change it.", "quantifier": "all argument lists", "why_tests_cant": "all inputs", "anchors": ["crypto.go:GenerateChallenge"]}
{"id": "C59", "title": "Different statements have different challenge inputs", "statement": "Two different lists of points are hashed as different byte strings.", "quantifier": "all lists of points", "why_tests_cant": "needs points with short coordinates", "anchors": ["crypto.go:GenerateChallenge", "crypto.go:ECPoint.Bytes"]}
{"id": "C60", "title": "HPoints are the powers of two", "statement": "TestCurve.HPoints[i] is 2^i times G for every i from 0 to 63, as the range proof needs, although int64 overflows at i = 63.", "quantifier": "all 64 indices, value semantics of int64 and big.Int.Bytes", "why_tests_cant": "the tests never check the table", "anchors": ["zksigma.go:generateH2tothe"]}
{"id": "C61", "title": "The second generator has no known discrete logarithm", "statement": "Nobody knows an integer k with TestCurve.H = k*G.", "quantifier": "the single constant H", "why_tests_cant": "not observable by running code", "anchors": ["zksigma.go:init"]}
{"id": "C62", "title": "H and the H table agree", "statement": "TestCurve.Mult(TestCurve.H, s) and TestCurve.C.ScalarMult(TestCurve.H, s) return the same point for every s.", "quantifier": "all s", "why_tests_cant": "the tests only use Mult with H", "anchors": ["btcec/btcec.go:ScalarBaseMultH", "btcec/secp256k1H.go", "crypto.go:Mult", "zksigma.go:init"]}
{"id": "C63", "title": "Field multiplication is multiplication modulo p", "statement": "For operands whose limbs are within magnitude 8, Mul2 and SquareVal return limbs of magnitude 1 whose value is the product modulo p; no 64-bit accumulator overflows.", "quantifier": "all limb vectors within the bounds", "why_tests_cant": "2^520 operand pairs", "anchors": ["btcec/field.go:Mul2", "btcec/field.go:SquareVal"]}
{"id": "C64", "title": "Field addition, negation and small multiples are exact", "statement": "Add, Add2, AddInt, MulInt and Negate compute the sum, multiple and additive inverse modulo p without limb overflow whenever the magnitudes stated in their documentation hold.", "quantifier": "all limb vectors within the bounds", "why_tests_cant": "2^520 operands", "anchors": ["btcec/field.go:Add", "btcec/field.go:Add2", "btcec/field.go:AddInt", "btcec/field.go:MulInt", "btcec/field.go:NegateVal"]}
{"id": "C65", "title": "Normalize gives the unique representative", "statement": "For every limb vector of magnitude at most 63, Normalize returns the limbs of the value reduced to [0,p); after it Equals, IsZero and IsOdd decide equality, zero and parity modulo p.", "quantifier": "all limb vectors within the bounds", "why_tests_cant": "all limb vectors", "anchors": ["btcec/field.go:Normalize", "btcec/field.go:Equals", "btcec/field.go:IsZero", "btcec/field.go:IsOdd"]}
{"id": "C66", "title": "Field bytes round trip", "statement": "SetBytes followed by PutBytes is the identity on all 32-byte strings, and the value of SetBytes is the big-endian number.", "quantifier": "all 2^256 byte strings", "why_tests_cant": "2^256", "anchors": ["btcec/field.go:SetBytes", "btcec/field.go:PutBytes", "btcec/field.go:SetByteSlice"]}
{"id": "C67", "title": "Field inversion", "statement": "Inverse returns the multiplicative inverse modulo p of every non-zero element and zero for zero.", "quantifier": "all field elements", "why_tests_cant": "2^256", "anchors": ["btcec/field.go:Inverse"]}
{"id": "C68", "title": "IsOnCurve decides the curve equation", "statement": "For all coordinates in [0,2^256), IsOnCurve(x,y) is true exactly when y^2 = x^3 + 7 modulo p.", "quantifier": "all coordinate pairs", "why_tests_cant": "2^512", "anchors": ["btcec/btcec.go:IsOnCurve"]}
{"id": "C69", "title": "Curve addition and doubling are the group law", "statement": "Add and Double of KoblitzCurve return the canonical coordinates of the group sum and double of points of y^2 = x^3 + 7, in all special cases.", "quantifier": "all pairs of points", "why_tests_cant": "2^512", "anchors": ["btcec/btcec.go:Add", "btcec/btcec.go:addJacobian", "btcec/btcec.go:Double", "btcec/btcec.go:doubleJacobian"]}
{"id": "C70", "title": "splitK decomposes exactly", "statement": "For every byte string k, splitK returns magnitudes and signs of k1, k2 with k = k1 + k2*lambda modulo N.", "quantifier": "all byte strings", "why_tests_cant": "all inputs", "anchors": ["btcec/btcec.go:splitK"]}
{"id": "C71", "title": "NAF is a correct non-adjacent form", "statement": "For every byte string k, NAF returns byte strings of equal length with value(pos) - value(neg) = value(k) and no position set in both, and no two adjacent positions used.", "quantifier": "all byte strings of every length", "why_tests_cant": "unbounded lengths", "anchors": ["btcec/btcec.go:NAF"]}
{"id": "C72", "title": "ScalarMult is scalar multiplication", "statement": "For every curve point B, identity included, and every byte string k, ScalarMult returns the canonical coordinates of k*B.", "quantifier": "all points and byte strings of every length", "why_tests_cant": "all inputs", "anchors": ["btcec/btcec.go:ScalarMult", "btcec/btcec.go:moduloReduce"]}
{"id": "C73", "title": "ScalarBaseMult is scalar multiplication of G", "statement": "For every byte string k, ScalarBaseMult returns the canonical coordinates of k*G and ScalarBaseMultH those of k times the base of the second table.", "quantifier": "all byte strings", "why_tests_cant": "all inputs and 16384 table entries", "anchors": ["btcec/btcec.go:ScalarBaseMult", "btcec/btcec.go:ScalarBaseMultH", "btcec/secp256k1.go", "btcec/secp256k1H.go"]}
{"id": "C74", "title": "The curve group has prime order N", "statement": "The points of y^2 = x^3 + 7 over the field with p elements, with the point at infinity, form a group with exactly N elements, p and N are prime, and G generates it.", "quantifier": "the whole group", "why_tests_cant": "2^256 points", "anchors": ["btcec/btcec.go:initS256"]}
{"id": "C75", "title": "Public key serialization round trip", "statement": "For every point on the curve, ParsePubKey of its uncompressed, compressed and hybrid serialization gives the same point, and SerializeX outputs have lengths 65, 33, 65.", "quantifier": "all curve points", "why_tests_cant": "2^256 points", "anchors": ["btcec/pubkey.go:ParsePubKey", "btcec/pubkey.go:SerializeCompressed", "btcec/pubkey.go:SerializeUncompressed", "btcec/pubkey.go:SerializeHybrid"]}
{"id": "C76", "title": "ParsePubKey accepts only curve points", "statement": "Whenever ParsePubKey returns a key without error, its coordinates are below p and satisfy the curve equation, and the input length is 33 or 65.", "quantifier": "all byte strings", "why_tests_cant": "all inputs", "anchors": ["btcec/pubkey.go:ParsePubKey"]}
{"id": "C77", "title": "DER signature round trip", "statement": "For R and S in [1, N-1], parsing Serialize() in either mode gives back R and the low-S form of S.", "quantifier": "all R, S", "why_tests_cant": "2^512", "anchors": ["btcec/signature.go:Serialize", "btcec/signature.go:parseSig"]}
{"id": "C78", "title": "Parsed signatures are in range", "statement": "Whenever ParseSignature or ParseDERSignature succeeds, R and S are between 1 and N-1.", "quantifier": "all byte strings", "why_tests_cant": "all inputs", "anchors": ["btcec/signature.go:parseSig"]}
{"id": "C79", "title": "Signature parsing never panics", "statement": "ParseSignature and ParseDERSignature return for every byte string.", "quantifier": "all byte strings", "why_tests_cant": "all inputs; length byte overflow", "anchors": ["btcec/signature.go:parseSig"]}
{"id": "C80", "title": "Sign produces valid low-S signatures", "statement": "A signature made by PrivateKey.Sign verifies under the ECDSA equation with the corresponding public key, and its S is at most N/2.", "quantifier": "all private keys and messages", "why_tests_cant": "all inputs", "anchors": ["btcec/signature.go:signRFC6979"]}
{"id": "C81", "title": "Compact signatures recover the key", "statement": "RecoverCompact of SignCompact's output returns the signer's public key and the compression flag.", "quantifier": "all private keys and hashes", "why_tests_cant": "all inputs", "anchors": ["btcec/signature.go:SignCompact", "btcec/signature.go:RecoverCompact"]}
{"id": "C82", "title": "PKCS padding round trip", "statement": "removePKCSPadding(addPKCSPadding(m)) = m for every message, the padded length is a positive multiple of 16, and removePKCSPadding never panics on non-empty block-aligned input.", "quantifier": "all byte strings", "why_tests_cant": "unbounded", "anchors": ["btcec/ciphering.go:addPKCSPadding", "btcec/ciphering.go:removePKCSPadding"]}
{"id": "C83", "title": "Decrypt inverts Encrypt", "statement": "For every message, key and randomness Decrypt(priv, Encrypt(pub, m)) = m; and Decrypt never panics on hostile input.", "quantifier": "all messages, keys, randomness; all byte strings for the second part", "why_tests_cant": "unbounded", "anchors": ["btcec/ciphering.go:Encrypt", "btcec/ciphering.go:Decrypt"]}
{"id": "C84", "title": "GSPFS proofs are about the generator", "statement": "A GSPFS proof accepted for A shows knowledge of the logarithm of A to the base G of the curve parameters, as the documentation of NewGSPFSProof says.", "quantifier": "all accepted proofs", "why_tests_cant": "adversarial proofs: the base is a field of the proof chosen by the prover and is not hashed", "anchors": ["gspfs.go:Verify", "gspfs.go:NewGSPFSProof"]}
{"id": "C85", "title": "A range proof fits only one commitment", "statement": "A range proof accepted for a commitment is rejected for every other curve point.", "quantifier": "all proofs and commitments", "why_tests_cant": "adversarial commitments", "anchors": ["rangeproof.go:Verify", "crypto.go:ECPoint.Equal"]}
{"id": "C86", "title": "Verifiers accept only curve points", "statement": "Every point of an accepted proof is a point of the curve.", "quantifier": "all accepted proofs", "why_tests_cant": "adversarial proofs", "anchors": ["gspfs.go:Verify"]}
{"id": "C87", "title": "ABC proofs hide the committed value", "statement": "An ABC proof does not let someone who holds only the proof confirm a guess of the committed value.", "quantifier": "all values, keys and randomness", "why_tests_cant": "a statement about all inputs and about what can be computed from the output", "anchors": ["abc.go:NewABCProof"]}
{"id": "C88", "title": "Range proof soundness, bit by bit", "statement": "For each tuple of a range proof, two accepting runs that share the earlier hash inputs and differ in the next challenge give by an explicit formula a number x such that the tuple's point is x*H or 2^i*G + x*H.", "quantifier": "all pairs of accepting tuples of points of the curve (for other points see C155), where neither the tuple's point nor this point minus 2^i*G is -G, H or -H and the outer challenge is not 0 modulo N", "why_tests_cant": "adversarial proofs", "anchors": ["rangeproof.go:verifyGen"]}
{"id": "C89", "title": "The second base point is hashed from the first", "statement": "The base point of ScalarBaseMultH is ParsePubKey of 0x02 followed by SHA-256 of the x coordinate of G plus 2, and ScalarBaseMultH(k) is ScalarMult of that point by k.", "quantifier": "all byte strings k", "why_tests_cant": "the second half is for all scalars", "anchors": ["btcec/gensecp256k1.go:main", "btcec/btcec.go:ScalarBaseMultH"]}
{"id": "C90", "title": "ParsePubKey accepts only serializations", "statement": "Every string accepted by ParsePubKey is the compressed, uncompressed or hybrid serialization of the key it returns.", "quantifier": "all byte strings", "why_tests_cant": "all inputs", "anchors": ["btcec/pubkey.go:ParsePubKey"]}
{"id": "C91", "title": "RecoverCompact never panics", "statement": "RecoverCompact returns a key or an error on every input.", "quantifier": "all byte strings as signature and hash", "why_tests_cant": "hostile inputs", "anchors": ["btcec/signature.go:RecoverCompact", "btcec/signature.go:recoverKeyFromSignature"]}
{"id": "C92", "title": "RecoverCompact returns points of the curve", "statement": "A key returned by RecoverCompact is a point of the curve.", "quantifier": "all byte strings as signature and hash", "why_tests_cant": "hostile inputs", "anchors": ["btcec/signature.go:RecoverCompact", "btcec/pubkey.go:decompressPoint"]}
{"id": "C93", "title": "DER encodings are unique", "statement": "A string accepted by ParseDERSignature is the output of Serialize for the signature it returns.", "quantifier": "all byte strings", "why_tests_cant": "all inputs", "anchors": ["btcec/signature.go:ParseDERSignature"]}
{"id": "C94", "title": "Signatures are not malleable", "statement": "For a hash and a public key, from a valid signature no second valid one can be computed without the private key.", "quantifier": "all keys, hashes and signatures", "why_tests_cant": "all inputs", "anchors": ["btcec/signature.go:Verify", "btcec/signature.go:Serialize"]}
{"id": "C95", "title": "Verify decides the ECDSA equation", "statement": "For every curve point A, Verify is true exactly if R and S are in [1,N-1] and there is a point K other than infinity with S*K = e*G + R*A and x(K) = R mod N, where e is the number in the first 32 bytes of the hash; it never panics.", "quantifier": "all signatures, hashes and curve points", "why_tests_cant": "all inputs", "anchors": ["btcec/signature.go:Verify", "btcec/signature.go:hashToInt"]}
{"id": "C96", "title": "Shared secrets agree", "statement": "GenerateSharedSecret(a, B) = GenerateSharedSecret(b, A) for all key pairs (a, A), (b, B).", "quantifier": "all pairs of private keys", "why_tests_cant": "all inputs", "anchors": ["btcec/ciphering.go:GenerateSharedSecret"]}
{"id": "C97", "title": "Shared secrets have 32 bytes", "statement": "GenerateSharedSecret returns the x coordinate of D*A as 32 bytes.", "quantifier": "all private keys and points", "why_tests_cant": "fails for one point in 256 only", "anchors": ["btcec/ciphering.go:GenerateSharedSecret"]}
{"id": "C98", "title": "Private key round trip", "statement": "PrivKeyFromBytes(Serialize(p)) = p for every private key made by PrivKeyFromBytes, and the serialization has 32 bytes if the key was made from at most 32.", "quantifier": "all byte strings", "why_tests_cant": "all inputs", "anchors": ["btcec/privkey.go:PrivKeyFromBytes", "btcec/privkey.go:Serialize"]}
{"id": "C99", "title": "Nonces are in range and deterministic", "statement": "nonceRFC6979 returns a number in [1,N-1] that depends only on the key and the hash.", "quantifier": "all keys and hashes, any number of rounds", "why_tests_cant": "the retry branch has probability 2^-128", "anchors": ["btcec/signature.go:nonceRFC6979"]}
{"id": "C100", "title": "Encrypt leaves the message buffer alone", "statement": "Encrypt does not write to memory of the caller.", "quantifier": "all messages and capacities of the slice", "why_tests_cant": "depends on the capacity of the slice", "anchors": ["btcec/ciphering.go:addPKCSPadding"]}
{"id": "C101", "title": "Decrypt checks the MAC", "statement": "Decrypt returns a message only if the last 32 bytes of the input are the HMAC of all bytes before under the key derived from the private key and the point in the input.", "quantifier": "all byte strings", "why_tests_cant": "hostile inputs", "anchors": ["btcec/ciphering.go:Decrypt"]}
{"id": "C102", "title": "Padding is validated", "statement": "removePKCSPadding accepts only input that ends in n bytes of value n, 1 <= n <= 16.", "quantifier": "all byte strings", "why_tests_cant": "all inputs", "anchors": ["btcec/ciphering.go:removePKCSPadding"]}
{"id": "C103", "title": "The order check of key recovery rejects", "statement": "The check that n*R is infinity in recoverKeyFromSignature fails for coordinates that are not of a curve point.", "quantifier": "all signatures and coordinates", "why_tests_cant": "all inputs", "anchors": ["btcec/signature.go:recoverKeyFromSignature"]}
{"id": "C104", "title": "Recovered keys verify", "statement": "If RecoverCompact returns a key, the signature verifies with that key.", "quantifier": "all byte strings as signature and hash", "why_tests_cant": "hostile inputs", "anchors": ["btcec/signature.go:RecoverCompact", "btcec/signature.go:Verify"]}
{"id": "C105", "title": "IsEqual is equality", "statement": "IsEqual of public keys and of signatures holds exactly for equal values; for curve points exactly if any of the serializations agree.", "quantifier": "all keys and signatures", "why_tests_cant": "all inputs", "anchors": ["btcec/pubkey.go:IsEqual", "btcec/signature.go:IsEqual"]}
{"id": "C106", "title": "Signatures distinguish hashes", "statement": "For two different hashes of at most 32 bytes, Sign and Verify do not behave identically.", "quantifier": "all pairs of hashes", "why_tests_cant": "all inputs", "anchors": ["btcec/signature.go:hashToInt"]}
{"id": "C107", "title": "Header bytes of compact signatures", "statement": "RecoverCompact accepts only the header bytes 27 to 34, and reports a compressed key exactly for 31 to 34.", "quantifier": "all byte strings", "why_tests_cant": "all inputs", "anchors": ["btcec/signature.go:RecoverCompact"]}
{"id": "C108", "title": "IsCompressedPubKey", "statement": "IsCompressedPubKey never panics, and among the strings accepted by ParsePubKey it is true exactly for the compressed serialization.", "quantifier": "all byte strings", "why_tests_cant": "all inputs", "anchors": ["btcec/pubkey.go:IsCompressedPubKey"]}
{"id": "C109", "title": "Ciphertext format", "statement": "Encrypt succeeds for every curve point and message; the ciphertext starts with the initialization vector and its length depends only on the length of the message.", "quantifier": "all points, messages and randomness", "why_tests_cant": "unbounded", "anchors": ["btcec/ciphering.go:Encrypt"]}
{"id": "C110", "title": "Integer square root", "statement": "sqrt returns the floor of the square root of every non-negative integer.", "quantifier": "all integers", "why_tests_cant": "false for 0 and for numbers one less than a square; no finite test shows that a loop ends for all others", "anchors": ["btcec/gensecp256k1.go:sqrt"]}
{"id": "C111", "title": "Endomorphism vectors", "statement": "For every order N > 3 with N + 1 not a perfect square (every prime above 3) and every lambda < N with N | lambda^2 + lambda + 1, EndomorphismVectors ends and returns two vectors that form a basis of the lattice {(a, b) : N | a + b lambda}, the first of them short.", "quantifier": "all N and lambda", "why_tests_cant": "the vectors are only generated for one curve", "anchors": ["btcec/gensecp256k1.go:EndomorphismVectors"]}
{"id": "C112", "title": "Endomorphism constants", "statement": "EndomorphismVectors of secp256k1 returns exactly the constants a1, b1, a2, b2 in the source.", "quantifier": "every sufficient number of iterations", "why_tests_cant": "the generator is not run by the tests", "anchors": ["btcec/gensecp256k1.go:EndomorphismVectors", "btcec/btcec.go:968-971"]}
{"id": "C113", "title": "Generated tables", "statement": "For every point of the curve, the bytes that SerializedBytePoints generates load into a table with which ScalarBaseMult of any scalar equals ScalarMult of the point.", "quantifier": "all points and scalars", "why_tests_cant": "quantifies over all base points and scalars", "anchors": ["btcec/gensecp256k1.go:SerializedBytePoints", "btcec/precompute.go:loadS256BytePoints", "btcec/btcec.go:ScalarBaseMult"]}
{"id": "C114", "title": "Committed tables are reproducible", "statement": "Generating and loading the table of G, and the one of H, gives the committed tables word for word.", "quantifier": "all 16384 entries", "why_tests_cant": "the committed tables are compressed and the generator is behind a build tag", "anchors": ["btcec/gensecp256k1.go:SerializedBytePoints", "btcec/gensecp256k1.go:SerializedBytePointsH", "btcec/secp256k1.go", "btcec/secp256k1H.go"]}
{"id": "C115", "title": "Base of the second table", "statement": "The base of the generated second table is the point with even y whose x coordinate is the SHA-256 hash of Gx + 2, and ScalarBaseMult with that table multiplies it.", "quantifier": "all scalars", "why_tests_cant": "all scalars", "anchors": ["btcec/gensecp256k1.go:getDoublingPointsH", "btcec/gensecp256k1.go:SerializedBytePointsH"]}
{"id": "C116", "title": "Table loading", "statement": "Loading panics exactly for fewer than 983040 bytes, ignores what follows them, and is inverse to serializing.", "quantifier": "all byte strings and all tables", "why_tests_cant": "unbounded", "anchors": ["btcec/precompute.go:loadS256BytePoints", "btcec/precompute.go:loadS256BytePointsH", "btcec/gensecp256k1.go:SerializedBytePoints"]}
{"id": "C117", "title": "Products are determined word for word", "statement": "The words of Mul2 and SquareVal depend only on the numbers the operands stand for: Mul2 is commutative and SquareVal(a) equals Mul2(a, a) word for word.", "quantifier": "all operands of magnitude at most 8", "why_tests_cant": "2^520 operand pairs", "anchors": ["btcec/field.go:Mul2", "btcec/field.go:SquareVal"]}
{"id": "C118", "title": "Curve arithmetic in place", "statement": "doubleJacobian and addJacobian write the double and the sum to the result pointers whichever pointers to the same coordinate coincide (operand with operand, operand with result; an x or y that two operands share without sharing z has to be normalised before); apart from the result they only may normalise the operands. Add and Double, which share one z, are right and change only what they allocate.", "quantifier": "all memories, pointers separated between different coordinates, all points", "why_tests_cant": "tests run a few aliasing patterns on a few points", "anchors": ["btcec/btcec.go:addJacobian", "btcec/btcec.go:doubleJacobian", "btcec/btcec.go:Add", "btcec/btcec.go:Double"]}
{"id": "C119", "title": "ScalarMult on memory", "statement": "ScalarMult, which updates its accumulator in place and normalises its operands while it uses them, returns the multiple, and changes no memory but what it allocates, in particular not curve.beta; so later calls are right too.", "quantifier": "all memories, points, byte strings", "why_tests_cant": "2^256 scalars and all memory states", "anchors": ["btcec/btcec.go:ScalarMult"]}
{"id": "C120", "title": "The tables stay intact", "statement": "ScalarBaseMult and ScalarBaseMultH on memory return the multiple of the base of their table and leave the table in memory as it was.", "quantifier": "all memories holding the table, all byte strings", "why_tests_cant": "a corrupted entry shows only in later calls with certain bytes", "anchors": ["btcec/btcec.go:ScalarBaseMult", "btcec/btcec.go:ScalarBaseMultH"]}
{"id": "C121", "title": "Proofs are not malleable", "statement": "Two accepted proofs of the same statement with the same random commitments are equal, so an accepted proof cannot be changed into another one without knowing the witness.", "quantifier": "all accepted proofs of all six kinds", "why_tests_cant": "adversarial proofs", "anchors": ["gspfs.go:Verify", "equivalence.go:Verify", "consistency.go:Verify", "disjunctive.go:Verify", "abc.go:Verify", "rangeproof.go:Verify"]}
{"id": "C122", "title": "A proof is bound to its statement", "statement": "If one proof is accepted for two different statements whose coordinates have full length, then the two byte strings that the verifier hashes are different and have the same hash modulo N.", "quantifier": "all proofs, all pairs of statements, five kinds of proofs", "why_tests_cant": "adversarial proofs and statements", "anchors": ["gspfs.go:Verify", "equivalence.go:Verify", "consistency.go:Verify", "disjunctive.go:Verify", "abc.go:Verify", "crypto.go:GenerateChallenge"]}
{"id": "C123", "title": "Proofs survive the way to the verifier", "statement": "Every proof that a prover returns without an error can be written with Bytes, and FromBytes returns the same proof; so the verifier says of what was read what it says of the proof itself.", "quantifier": "all curve points, witnesses and random draws, all six provers, for range proofs all schedules", "why_tests_cant": "all inputs; the prover and the serialization are tested apart", "anchors": ["gspfs.go:Bytes", "gspfs.go:NewGSPFSProofFromBytes", "abc.go:Bytes", "abc.go:NewABCProofFromBytes", "rangeproof.go:Bytes", "rangeproof.go:NewRangeProofFromBytes"]}
{"id": "C124", "title": "A failing random source is reported", "statement": "If the system random source fails, the functions that draw random numbers return an error and no proof, and do not panic.", "quantifier": "all inputs, every choice of draws that fail, all schedules", "why_tests_cant": "the system source does not fail in tests", "anchors": ["rangeproof.go:NewRangeProof", "rangeproof.go:proofGenA", "rangeproof.go:proofGenB", "btcec/privkey.go:NewPrivateKey", "btcec/ciphering.go:Encrypt", "crypto.go:KeyGen", "crypto.go:PedCommit", "abc.go:NewABCProof", "disjunctive.go:NewDisjunctiveProof"]}
{"id": "C125", "title": "The curve is initialised once", "statement": "Every call of S256 returns after all statements of initAll have run exactly once, the curve does not change afterwards, and calls from any goroutines do not deadlock.", "quantifier": "any number of goroutines, all schedules", "why_tests_cant": "races depend on the schedule", "anchors": ["btcec/btcec.go:S256", "btcec/btcec.go:initAll"]}
{"id": "C126", "title": "Functions do not modify numbers they are given", "statement": "No exported function, prover or verifier changes the value of a number that existed before the call: not its arguments, not the curve parameters, not Zero or BigZero.", "quantifier": "all calls and all sequences of calls, all ways in which arguments and parameters share *big.Int pointers", "why_tests_cant": "tests use few combinations of shared pointers and do not compare the arguments afterwards", "anchors": ["crypto.go:Add", "crypto.go:Neg", "crypto.go:PedCommitR", "consistency.go:NewConsistencyProof", "disjunctive.go:NewDisjunctiveProof", "abc.go:NewABCProof", "rangeproof.go:NewRangeProof", "rangeproof.go:Verify"]}
{"id": "C127", "title": "Sharing of pointers does not change results", "statement": "The result of a call depends only on the values of its arguments. Passing the same pointer twice, or a pointer of the parameters, gives the same result as passing copies, and a verifier repeats its verdict whatever calls are made in between.", "quantifier": "all calls, all memory layouts with the same values", "why_tests_cant": "there are too many ways to share pointers", "anchors": ["crypto.go:Mult", "crypto.go:Equal", "gspfs.go:NewGSPFSProofBase", "equivalence.go:NewEquivalenceProof", "disjunctive.go:Verify", "inequality.go:NewInequalityProof", "rangeproof.go:proofGenB"]}
{"id": "C128", "title": "Results share no memory with arguments", "statement": "The numbers in a result are new, so that a caller who modifies them changes neither the arguments nor the curve parameters.", "quantifier": "all calls, all memory layouts", "why_tests_cant": "tests do not modify results", "anchors": ["crypto.go:Add", "crypto.go:Sub", "crypto.go:Neg", "gspfs.go:NewGSPFSProofBase", "rangeproof.go:proofGenA"]}
{"id": "C129", "title": "No data races", "statement": "Goroutines of a client may call any exported functions at the same time, with the same curve parameters, points, scalars and proofs, and without locks: in no schedule are two goroutines about to access the same big.Int or the same variable of a range prover with one of them writing.", "quantifier": "any number of goroutines, any programs of calls, all schedules of single accesses, including the goroutines started by NewRangeProof and RangeProof.Verify", "why_tests_cant": "the race detector sees only the schedules and calls of a test run", "anchors": ["rangeproof.go:proofGenA", "rangeproof.go:proofGenB", "rangeproof.go:NewRangeProof", "rangeproof.go:verifyGen", "rangeproof.go:Verify", "crypto.go:Neg", "zksigma.go:ZKPCurveParams"]}
{"id": "C130", "title": "Concurrent calls return what they return alone", "statement": "Every call that returns while other goroutines make calls returns the result that the same call has when nothing else runs, and its arguments, its result, the curve parameters and all other numbers there were keep their values for ever after.", "quantifier": "any number of goroutines, any programs of calls, all schedules of single accesses", "why_tests_cant": "there are far too many schedules", "anchors": ["rangeproof.go:NewRangeProof", "rangeproof.go:Verify", "disjunctive.go:NewDisjunctiveProof", "crypto.go:PedCommitR"]}
{"id": "C131", "title": "A crash is the fault of a call that panics", "statement": "If the process crashes, some call was made whose function panics for these arguments; in particular a call that has returned does not crash the process later.", "quantifier": "any number of goroutines, any programs of calls, all schedules of single accesses", "why_tests_cant": "the crash comes after the call has returned, and only in some schedules", "anchors": ["rangeproof.go:Verify", "rangeproof.go:verifyGen"]}
{"id": "C132", "title": "Concurrent calls end", "statement": "Goroutines that make calls at the same time neither block each other nor run for ever: every schedule ends, and when no goroutine can go on and the process has not crashed, all calls have returned and every goroutine of the client is done.", "quantifier": "any number of goroutines, any programs of calls, all schedules of single accesses", "why_tests_cant": "deadlocks depend on the schedule", "anchors": ["rangeproof.go:NewRangeProof", "rangeproof.go:proofGenA", "rangeproof.go:proofGenB", "rangeproof.go:Verify", "rangeproof.go:verifyGen"]}
{"id": "C133", "title": "A GSPFS proof shows knowledge of the discrete logarithm when SHA-256 is a random function", "statement": "A prover who asks the hash function at most q questions and outputs, with probability e, a proof with base G that Verify accepts for the point A, yields the discrete logarithm of A to the base G (of the point Mult multiplies for A): running it a second time with new answers from the verifier's question on gives two proofs from which an explicit formula computes the logarithm with probability at least e*(e/(33(q+1)) - 2(2^256/N+1)/2^256).", "quantifier": "all provers (any computation, any adaptive questions, any q), all points A, all sets of strings on which the hash function is random, every curve with 32-byte coordinates that meets the specification, TestCurve among them", "why_tests_cant": "a statement about all provers and about probabilities over all hash functions", "anchors": ["gspfs.go:Verify", "crypto.go:GenerateChallenge"]}
{"id": "C134", "title": "False equivalence statements are accepted with negligible probability when SHA-256 is a random function", "statement": "If no x relates both pairs of points (up to the sign that Equal ignores), no prover who asks at most q questions gets a proof with commitments on the curve accepted with more than probability 71874(q+1)(2^256/N+1)/2^256; for all statements, three runs of a prover accepted with probability e give the common logarithm with probability at least e*((e/(35937(q+1)))^2 - 3(2^256/N+1)/2^256).", "quantifier": "all provers without bound on their computations, all statements, all q, every curve with 32-byte coordinates that meets the specification", "why_tests_cant": "a statement about all provers and about probabilities over all hash functions", "anchors": ["equivalence.go:Verify", "crypto.go:GenerateChallenge"]}
{"id": "C135", "title": "A consistency proof shows knowledge of the opening when SHA-256 is a random function", "statement": "Three runs of a prover who asks at most q questions and whose proof, with commitments on the curve, is accepted with probability e give, by explicit formulas and with probability at least e*((e/(35937(q+1)))^2 - 3(2^256/N+1)/2^256), a value and a random number that open the commitment, where the token is the random number times the key up to sign.", "quantifier": "all provers, all statements, all q, every curve with 32-byte coordinates that meets the specification", "why_tests_cant": "a statement about all provers and about probabilities over all hash functions", "anchors": ["consistency.go:Verify", "crypto.go:GenerateChallenge"]}
{"id": "C136", "title": "A disjunctive proof shows knowledge of one of the logarithms when SHA-256 is a random function", "statement": "Two runs of a prover who asks at most q questions and whose proof, with commitments on the curve, is accepted with probability e give, by explicit formulas and with probability at least e*(e/(35937(q+1)) - (2^256/N+1)/2^256), the logarithm of the first or of the second side.", "quantifier": "all provers, all statements, all q, every curve with 32-byte coordinates that meets the specification", "why_tests_cant": "a statement about all provers and about probabilities over all hash functions", "anchors": ["disjunctive.go:Verify", "crypto.go:GenerateChallenge"]}
{"id": "C137", "title": "GSPFS proofs are zero knowledge when SHA-256 is a random function", "statement": "Whoever asks SHA-256 at most q times before it gets a proof of NewGSPFSProofBase, and as often as it likes after, gives each verdict with the same probability up to 33q/N when the proof is made by a simulator that does not get x and SHA-256 then has another answer at the one string of that proof. The same up to 33n(q+n)/N for up to n proofs that are asked for in between at most q questions in all.", "quantifier": "all distinguishers, all secrets, all non-zero bases at which Mult is scalar multiplication, all q and n, every curve with 32-byte coordinates that meets the specification", "why_tests_cant": "a statement about all distinguishers and about probabilities over all hash functions and draws", "anchors": ["gspfs.go:NewGSPFSProofBase", "crypto.go:GenerateChallenge"]}
{"id": "C138", "title": "Equivalence proofs are zero knowledge when SHA-256 is a random function", "statement": "As C137 for NewEquivalenceProof and a simulator that does not get x: the verdicts differ with probability at most 35937q/N for one proof and 35937n(q+n)/N for n proofs.", "quantifier": "all distinguishers, all statements with a non-zero first base, all q and n, every curve with 32-byte coordinates that meets the specification", "why_tests_cant": "a statement about all distinguishers and about probabilities over all hash functions and draws", "anchors": ["equivalence.go:NewEquivalenceProof", "crypto.go:GenerateChallenge"]}
{"id": "C139", "title": "Consistency proofs are zero knowledge when SHA-256 is a random function", "statement": "As C137 for NewConsistencyProof and a simulator that gets neither the value nor the randomness: the verdicts differ with probability at most 35937q/N^2 for one proof and 35937n(q+n)/N^2 for n proofs.", "quantifier": "all distinguishers, all commitments and tokens, all non-zero public keys, all q and n, every curve with 32-byte coordinates that meets the specification", "why_tests_cant": "a statement about all distinguishers and about probabilities over all hash functions and draws", "anchors": ["consistency.go:NewConsistencyProof", "crypto.go:GenerateChallenge"]}
{"id": "C140", "title": "Range proofs are proofs of knowledge when SHA-256 is a random function", "statement": "On TestCurve, and on every curve with H = kG for a known k such that G and H have no relation with small coefficients: let a prover ask at most q questions to a random SHA-256 and let Verify accept its range proof with n tuples (at most 64) of curve points with probability e. Write Q = q+n+1 and p = (2^256/N+1)/2^256. For every d: with probability at least e - n*Q^2*4097*33^3*d - (n+1)*Q*p the proof is accepted and, for every bit i, running the prover once more with new answers from the last question on which the bit depends gives with probability at least d - 111p, by explicit formulas, the randomness of a commitment to 0 or to 2^i, or the logarithm of G to the base that Mult uses for H, unless the point is 2^i G + H or 2^i G - H. With t such runs for each bit, explicit numbers v < 2^n and r with comm = (v+mk)G + rH or its negative, where m counts with signs the points 2^i G + H and 2^i G - H (C142), or that logarithm, are found with probability at least (that bound) * (1 - (1-(d-111p))^t)^n. On every other curve the same holds, with 2p for 111p and m = 0, for proofs without points that Mult confuses with others.", "quantifier": "all provers, all q, all n up to 64, all d and t, all commitments, all proofs of curve points", "why_tests_cant": "a statement about all provers and about probabilities over all hash functions", "anchors": ["rangeproof.go:RangeProof.Verify", "rangeproof.go:verifyGen"]}
{"id": "C141", "title": "ABC proofs are proofs of knowledge when SHA-256 is a random function", "statement": "Let a prover ask at most q questions to a random SHA-256 and let Verify accept its ABC proof of curve points for CM and CMTok with probability e. Write p = (2^256/N+1)/2^256. For every d: with probability at least e - (q+2)*(33^8+33^6)*d the proof is accepted and (a) two more runs with new answers from the question of Verify on give with probability at least d^2 - 3p, by explicit formulas, numbers with CM = vG + k CMTok and C = vB + lH or C = -(vB + lH), and (b) one more run with new answers from the question of the disjunctive proof on gives with probability at least d - p an explicit x with CMTok = x CM or an explicit y with C - G = yH. Together, with probability at least the product of the three bounds: explicit v and k with CM = vG + k CMTok, and CMTok is an explicit multiple of CM, or v is not 0 modulo N, or there is an explicit relation between G and H; on TestCurve this relation is the logarithm of G to the base that Mult uses for H. (Multiples of a point are those that Mult computes.)", "quantifier": "all provers, all q and d, all commitments and tokens, every curve with 32-byte coordinates that meets the specification", "why_tests_cant": "a statement about all provers and about probabilities over all hash functions", "anchors": ["abc.go:ABCProof.Verify", "disjunctive.go:DisjunctiveProof.Verify"]}
{"id": "C142", "title": "A commitment with an accepted range proof of 40 tuples cannot be opened to a value outside the range", "statement": "On TestCurve, whoever makes a RangeProof with 40 tuples that Verify accepts for comm cannot open comm, that is, show v and r with PedCommitR(v, r) = comm, for a v that is not, up to sign and modulo N, in 0..2^40-1. (False: a program of a few calls, without any secret and for every hash function, makes such a proof for a commitment to a value of 256 bits, because Mult treats C_i - 2^i G = H as the other base.)", "quantifier": "all hash functions", "why_tests_cant": "tests verify proofs that the library's prover made; a tampered proof found by tests is rejected, and no test looks for the one point at which Mult is wrong", "anchors": ["rangeproof.go:RangeProof.Verify", "rangeproof.go:verifyGen", "zksigma.go:ZKPCurveParams.Mult", "zksigma.go:TestCurve"]}
{"id": "C143", "title": "NewEquivalenceProof makes no accepted proof for different logarithms", "statement": "On TestCurve, if NewEquivalenceProof(Base1, Result1, Base2, Result2, x) returns a proof that Verify accepts, there is a number that is, up to signs, the logarithm of Result1 to the base Base1 and that of Result2 to the base Base2. (False for Base1 = H and Result1 = Mult(H, 1), with G as Base2 and Result2: the library's own prover makes the proof, Verify accepts it, and Result1 is neither H nor -H.)", "quantifier": "all hash functions, all random numbers", "why_tests_cant": "tests compute the results with Mult, so that they agree with the prover and the verifier by construction", "anchors": ["equivalence.go:NewEquivalenceProof", "equivalence.go:EquivalenceProof.Verify", "zksigma.go:ZKPCurveParams.Mult"]}
{"id": "C144", "title": "A published ABC proof does not reveal the secret key", "statement": "Someone who sees an ABC proof made by NewABCProof, the commitment, the token and the public key cannot compute the secret key. (False for the value 0: dividing the first response of the nested disjunctive proof, which is not reduced, by its challenge gives the key. On TestCurve, for every key, commitment to 0 and all numbers drawn, trying the 257 numbers below the quotient for each side and comparing with the public key finds the key with probability at least 99/100 over a random SHA-256. For other values the proof cannot be told from that of a simulator that does not get the key, but with probability 33(q+1)/N for q questions asked before.)", "quantifier": "all keys, commitments, tokens, random numbers; all observers with q questions", "why_tests_cant": "tests check that proofs verify, not what an observer can compute from them; a probability over all hash functions", "anchors": ["abc.go:NewABCProof", "disjunctive.go:NewDisjunctiveProof"]}
{"id": "C145", "title": "An inequality proof does not reveal the difference of the values", "statement": "Someone who sees an inequality proof made by NewInequalityProof for two commitments learns that the committed values differ and nothing else about them. (False: the response l of the ABC proof in it is not reduced. On TestCurve, for all values that differ modulo N, all blinding factors, keys and numbers drawn, the observer is left with at most 257 possible differences, and the true one passes its test, with probability at least 99/100 over a random SHA-256. What holds: beyond the difference nothing is revealed about the two values, and nothing about the secret key; the proof cannot be told from the output of a simulator that gets only differences and the public key, but with probability 33(q+1)/N for q questions asked before.)", "quantifier": "all values, blinding factors, keys, random numbers; all observers with q questions", "why_tests_cant": "tests check that proofs verify, not what an observer can compute from them; a probability over all hash functions", "anchors": ["inequality.go:NewInequalityProof", "abc.go:NewABCProof"]}
{"id": "C146", "title": "Hexadecimal text of numbers and field values", "statement": "String of a field value is 64 lower-case digits that identify the value modulo p, and SetHex reads them back. SetHex reads up to 64 hexadecimal digits as the big-endian number and panics for more; it reports no error for invalid text but drops everything from the first pair of characters that is not a pair of digits. fromHex reads signed hexadecimal numbers and panics for everything else.", "quantifier": "all field values with words up to 63 times the normal size; all strings", "why_tests_cant": "all strings, and 2^256 values in many representations", "anchors": ["btcec/field.go:String", "btcec/field.go:SetHex", "btcec/btcec.go:fromHex"]}
{"id": "C147", "title": "The table files initialise the curve", "statement": "initS256 panics exactly when one of the two table strings does not load, and otherwise sets the documented constants. If reading back what compress/zlib wrote gives it back, the files that the generator writes contain strings with which initS256 sets the committed tables, word for word; empty strings leave the tables nil.", "quantifier": "all codecs, all strings", "why_tests_cant": "the generator is behind a build tag and never run by tests", "anchors": ["btcec/btcec.go:initS256", "btcec/precompute.go:loadS256BytePoints", "btcec/precompute.go:loadS256BytePointsH", "btcec/genprecomps.go:main"]}
{"id": "C148", "title": "RandomUint64 is uniform", "statement": "RandomUint64 takes eight bytes from the reader and returns them as a big-endian number, so that each number belongs to exactly one string of eight bytes; if the reader fails earlier it returns 0 and the error.", "quantifier": "all byte streams", "why_tests_cant": "2^64 values", "anchors": ["wire/common.go:RandomUint64", "wire/common.go:randomUint64", "wire/common.go:Uint64"]}
{"id": "C149", "title": "The audit of averages succeeds", "statement": "When a bank makes any number of transactions with values other than 0 as in TestAverages_Basic (commitment, token, ABC proof), adds up the commitments, tokens, bit commitments and their tokens, and makes the two equivalence proofs for the true number of transactions and the true sum of values, both calls succeed and an auditor who computes the sums again accepts both proofs.", "quantifier": "all keys, lists of transactions, draws, hash functions", "why_tests_cant": "the test runs once with 100 random transactions; the draws for which it fails are rare", "anchors": ["crypto_test.go:TestAverages_Basic", "abc.go:NewABCProof", "equivalence.go:NewEquivalenceProof", "equivalence.go:Verify", "crypto.go:Add", "crypto.go:Neg"]}
{"id": "C150", "title": "The audited number of transactions is right", "statement": "An auditor who verifies the ABC proofs of all transactions, adds up their bit commitments C and tokens CToken as in TestAverages_Basic, and accepts the equivalence proof for a claimed number of transactions, knows that this is the number of transactions whose value is not 0.", "quantifier": "all cheating banks, lists of transactions, claimed numbers", "why_tests_cant": "needs a cheating bank", "anchors": ["crypto_test.go:TestAverages_Basic", "abc.go:Verify", "equivalence.go:Verify"]}
{"id": "C151", "title": "The audited sum of values is right", "statement": "An auditor who verifies the consistency and ABC proofs of all transactions, adds up their commitments and tokens as in TestAverages_Basic, and accepts the equivalence proof for a claimed sum, knows that this is the sum of the committed values modulo N, unless the bank knows the logarithm of G to the base of the table for H.", "quantifier": "all cheating banks, lists of transactions, claimed sums", "why_tests_cant": "needs a cheating bank", "anchors": ["crypto_test.go:TestAverages_Basic", "consistency.go:Verify", "abc.go:Verify", "equivalence.go:Verify", "crypto.go:Mult"]}
{"id": "C152", "title": "Proofs made with a wrong value or key are refused", "statement": "NewABCProof with side Right does not check the value and the key it is given. Called with a value that is not the committed one, or with a key that is not that of the token, it returns a proof and no error, and Verify refuses that proof with false and an error, except with negligible probability. The same holds for NewInequalityProof called with values whose difference is not that of the committed values, for example with the two values in the wrong order.", "quantifier": "all commitments, tokens, values, keys, draws of the prover; SHA-256 a random function", "why_tests_cant": "TestABCProof and TestInequalityProve try one wrong value each, with one set of draws", "anchors": ["abc.go:NewABCProof", "abc.go:Verify", "inequality.go:NewInequalityProof", "inequality.go:Verify", "abc_test.go:TestABCProof", "inequality_test.go:TestInequalityProve"]}
{"id": "C153", "title": "An ABC proof for another product than 1 is refused", "statement": "A prover who puts together an ABC proof as NewABCProof does for the right side, but with B a commitment to k/v and C a commitment to k instead of 1, and with a nested disjunctive proof for C - kG instead of C - G, gets it refused by Verify with false and an error if k is not 1, except with negligible probability; with k = 1 it is accepted. TestBreakABCProve tries k = 2; it also passes the two points of the nested proof in the other order than Verify does, so that it would be passed for k = 1 too.", "quantifier": "all factors k, commitments, tokens, values, keys, draws of the prover, both orders; SHA-256 a random function", "why_tests_cant": "TestBreakABCProve tries one factor with one set of draws, and the order of its points alone makes the proof fail", "anchors": ["abc.go:Verify", "disjunctive.go:Verify", "abc_test.go:TestBreakABCProve"]}
{"id": "C154", "title": "Verifying a received proof does not crash", "statement": "If a deserializer returns a proof and no error, then Verify of that proof on TestCurve returns for every statement of well-formed points: it does not panic, whatever numbers the bytes hold.", "quantifier": "all proofs of the six kinds with all fields present, all statements, all hash functions; all schedules of the goroutines of RangeProof.Verify", "why_tests_cant": "coordinates are unbounded integers chosen by the sender; no test verifies a deserialized proof whose coordinates are not those of curve points", "anchors": ["gspfs.go:Verify", "equivalence.go:Verify", "consistency.go:Verify", "disjunctive.go:Verify", "abc.go:Verify", "inequality.go:Verify", "rangeproof.go:Verify", "crypto.go:ReadECPoint", "btcec/field.go:SetByteSlice", "btcec/btcec.go:bigAffineToField"]}
{"id": "C155", "title": "No range proof without an opening", "statement": "If RangeProof.Verify accepts a proof for a commitment, then the commitment is (up to its sign) the sum of the points of the proof in the group of the curve, and the challenge is the hash of the R points; so a prover who knows no opening of the commitment cannot make an accepted proof.", "quantifier": "all hash functions, commitments and proofs of up to 64 tuples, including proofs with points that do not lie on the curve", "why_tests_cant": "no test verifies a proof with points off the curve; the forgery needs points chosen so that Mult and Add run into formulas that assume curve points", "anchors": ["rangeproof.go:Verify", "rangeproof.go:verifyGen", "crypto.go:Add", "crypto.go:Mult", "crypto.go:Equal", "btcec/btcec.go:ScalarMult", "btcec/btcec.go:Add", "btcec/btcec.go:splitK"]}
{"id": "C156", "title": "Only statements about curve points are accepted", "statement": "If Verify accepts a GSPFS, equivalence, consistency, disjunctive or ABC proof, then the points of the statement are points of the curve, so that the statement can hold: the results are multiples of the bases, the commitment is a Pedersen commitment.", "quantifier": "all hash functions, all bases and other points of the statement, all numbers chosen by the prover", "why_tests_cant": "the verifiers' equations hold for such points because the challenge drops out of them; no test verifies a statement with points off the curve", "anchors": ["gspfs.go:Verify", "equivalence.go:Verify", "consistency.go:Verify", "disjunctive.go:Verify", "abc.go:Verify", "crypto.go:Mult", "btcec/btcec.go:ScalarMult"]}
{"id": "C157", "title": "The bit commitment of an accepted ABC proof is right", "statement": "If CM is a commitment to v, CMTok its token, and Verify accepts an ABC proof for them, then the point C of the proof is a commitment to 0 if v is 0 modulo N and to 1 otherwise, as the type ABCProof says, unless the prover knows the logarithm of G to the base of the H table. (False: for v = 0 and every key the point (p, p) is accepted as C; for v = 5 and blinding factor 0 a commitment to 0 is accepted. For points of the curve and a blinding factor that is not 0 modulo N, transcripts with different challenges give the opening of C or the logarithm by explicit formulas; so do four runs of a prover who asks a random SHA-256, with the probabilities of C141.)", "quantifier": "all commitments, keys, proofs and hash functions", "why_tests_cant": "needs a cheating prover and all proofs it can make", "anchors": ["abc.go:ABCProof", "abc.go:Verify", "disjunctive.go:Verify"]}
{"id": "C158", "title": "Reading does not depend on how the reader delivers its bytes", "statement": "ReadVarInt, ReadVarBytes, ReadECPoint and ReadBigInt on an io.Reader that delivers its bytes in pieces of any sizes return the value, the presence of an error and the bytes left that they return on a buffer with the same bytes, and panic when they panic there; an error of the reader that comes with the last byte needed or later has no effect. From any reader, whatever errors it reports, a value returned without an error is the one that a buffer with all its bytes gives. So points and integers that were written are read back from any such reader.", "quantifier": "all readers (pieces of any number and size, empty ones, errors at any place), all values, all allocation limits", "why_tests_cant": "all ways to cut all inputs; the tests of the project only read from buffers", "anchors": ["wire/common.go:ReadVarInt", "wire/common.go:ReadVarBytes", "crypto.go:ReadECPoint", "crypto.go:ReadBigInt"]}
{"id": "C159", "title": "io.EOF means that the input ended before the value", "statement": "If ReadVarInt, ReadVarBytes, ReadECPoint or ReadBigInt returns io.EOF, then the reader had no byte to give; an input that ends inside the value gives io.ErrUnexpectedEOF. (False: a VarInt cut behind its first byte, a byte string or an integer cut behind its length, and a point without its second coordinate give io.EOF, so that a caller who reads until io.EOF takes a truncated input for a complete one. Proved: an empty input gives io.EOF, and the exact inputs that give it for each of the four functions.)", "quantifier": "all readers without errors of their own, all inputs", "why_tests_cant": "all inputs and all ways to deliver them", "anchors": ["wire/common.go:ReadVarInt", "wire/common.go:ReadVarBytes", "crypto.go:ReadECPoint", "crypto.go:ReadBigInt"]}
{"id": "C160", "title": "Failing writers are noticed", "statement": "For every io.Writer that keeps its contract (an error comes with a short count), WriteVarInt, WriteVarBytes, WriteBigInt and WriteECPoint return no error only if the whole encoding was taken; otherwise they return the error of the Write that failed, write nothing after it, and the bytes taken are a prefix of the encoding. What was written without an error is read back from any reader.", "quantifier": "all writers with any state that keep the contract, all values", "why_tests_cant": "all writers and all places where they can fail", "anchors": ["wire/common.go:WriteVarInt", "wire/common.go:WriteVarBytes", "crypto.go:WriteBigInt", "crypto.go:WriteECPoint"]}
{"id": "C161", "title": "Deserialized proofs are not larger than the input", "statement": "For each of the six New...ProofFromBytes functions, a proof that is returned has no more tuples, and its numbers have together no more bytes, than the input has bytes.", "quantifier": "all byte strings, all allocation limits", "why_tests_cant": "all inputs; the inputs that break it announce counts so large that running them is not practical", "anchors": ["rangeproof.go:NewRangeProofFromBytes", "abc.go:NewABCProofFromBytes", "disjunctive.go:NewDisjunctiveProofFromBytes", "gspfs.go:NewGSPFSProofFromBytes", "equivalence.go:NewEquivalenceProofFromBytes", "consistency.go:NewConsistencyProofFromBytes"]}
{"id": "C162", "title": "Accepted proofs have no missing parts", "statement": "If a Verify function returns true then no coordinate and no number of the proof or of the statement (the points passed to Verify) is nil; so an accepted proof can be serialized with Bytes.", "quantifier": "all six kinds of proof with any fields nil, all statements, all hash functions, all schedules of the goroutines of RangeProof.Verify", "why_tests_cant": "every combination of missing fields, and every schedule; a proof with a missing field is not what the prover makes", "anchors": ["gspfs.go:GSPFSProof.Verify", "equivalence.go:EquivalenceProof.Verify", "consistency.go:ConsistencyProof.Verify", "disjunctive.go:DisjunctiveProof.Verify", "abc.go:ABCProof.Verify", "inequality.go:InequalityProof.Verify", "rangeproof.go:RangeProof.Verify", "crypto.go:Mult", "crypto.go:ECPoint.Equal"]}
{"id": "C163", "title": "The nonce of Sign is the one of RFC 6979", "statement": "For a private key x and a hash, the nonce with which Sign makes its signature is the first of the candidates of RFC 6979, section 3.2 (HMAC-SHA-256, order N, x and the reduced leading 256 bits of the hash as seed) that lies between 1 and N-1, and no other.", "quantifier": "all private keys below 2^256, all hashes of any length, any number of rejected candidates", "why_tests_cant": "all keys and hashes; rejected candidates and hashes of N or more occur with probability about 2^-128, so no test reaches them", "anchors": ["btcec/signature.go:nonceRFC6979", "btcec/signature.go:bits2octets", "btcec/signature.go:int2octets", "btcec/signature.go:mac", "btcec/signature.go:hashToInt", "btcec/signature.go:signRFC6979"]}
{"id": "C164", "title": "No proof is made of a missing secret", "statement": "A prover that is given nil for a secret (the scalar, the value, the randomness, the secret key) never returns a proof without an error. If H is a point of the curve it panics, except NewABCProof with nil for the value and a side that is neither Left nor Right, and NewInequalityProof with nil for both values, which return an error.", "quantifier": "all seven provers, all statements, all randomness, all hash functions, every combination of missing secrets", "why_tests_cant": "all combinations of missing and present arguments, sides, points and randomness", "anchors": ["gspfs.go:NewGSPFSProofBase", "equivalence.go:NewEquivalenceProof", "consistency.go:NewConsistencyProof", "disjunctive.go:NewDisjunctiveProof", "abc.go:NewABCProof", "inequality.go:NewInequalityProof", "rangeproof.go:NewRangeProof", "crypto.go:Mult"]}
