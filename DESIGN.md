# Formal model of zksigma in Lean 4

Source: `/repo` (mit-dci/zksigma, pinned commit). Nothing of it is built or run.
The model is in `lean/Verif`; every definition cites the Go file and lines it mirrors.

## Modelling conventions

* `big.Int` is Lean `Int`. A `*big.Int` that may be nil is `Option Int`. A point
  (`ECPoint`) is a pair of such pointers. Go `uint8/16/32/64` are Lean `UInt8/16/32/64`.
* A Go call returns a value of `Go α`: `ok a` or `panic`. Returned errors are values
  (`Option Err` in the result). Code that ignores an error is modelled as ignoring it.
* `io.Reader` over a byte slice (`bytes.Buffer`) is a byte list; reading returns the rest. Readers that deliver
  pieces or fail and writers that fail are in `Verif/Stream` (C158-C160).
* `make([]byte, n)` panics in Go when `n` is too large. A parameter `maxAlloc`, any
  number, is the largest allocation that succeeds; theorems hold for every value of it
  (or need it to be at least the size of the data in question).
* Randomness (`crypto/rand`) is an explicit argument; theorems quantify over it. Draws succeed except in C124.
* In the protocols SHA-256 is an arbitrary function `List UInt8 → List UInt8`; theorems quantify
  over it. Nothing is assumed on it except, where stated, in a hypothesis of the theorem.
  `init` computes `TestCurve.H` with it, so there it is written out after FIPS 180-4
  (`sha256` in `Verif/Curve/TestCurve.lean`).
* Goroutines, channels and wait groups are state machines with an explicit step relation;
  theorems quantify over all step sequences.

## Layers

| layer | Lean directory | Go code |
|---|---|---|
| A wire | `Verif/Wire` | `wire/common.go` |
| B' any reader, any writer | `Verif/Stream` | the read and write functions of `wire/common.go` and `crypto.go` with `io.Reader` and `io.Writer` of any behaviour; `io.ReadFull` |
| B serialization | `Verif/Ser` | `crypto.go` read/write functions, all `Bytes`/`FromBytes` |
| C protocols | `Verif/Proto`, `Verif/Range` | `crypto.go`, `zksigma.go`, all provers and verifiers; range proofs with their goroutines |
| D field | `Verif/Field` | `btcec/field.go` |
| E curve | `Verif/Curve` | `btcec/btcec.go` |
| F keys, signatures, encryption | `Verif/Ec` | `btcec/pubkey.go`, `privkey.go`, `signature.go`, `ciphering.go` |
| H generation of constants | `Verif/Gen` | `btcec/gensecp256k1.go`, `btcec/precompute.go` |
| L text forms | `Verif/Text` | hexadecimal text in `btcec/field.go`, `initS256`, `btcec/genprecomps.go` |
| I curve routines on memory | `Verif/Heap` | `btcec/btcec.go`, its pointers to field values |
| J provers and verifiers on memory | `Verif/Mem` | `crypto.go`, all provers and verifiers, their pointers to `big.Int` |
| M audit of averages | `Verif/Audit` | the bank and the auditor of `TestAverages_Basic` in `crypto_test.go` |
| N hostile input | `Verif/Hostile`, `Verif/Offcurve` | `Verify` of layer C on `TestCurve` for what `FromBytes` can return: coordinates of any size, points that are not on the curve |
| K random hash function | `Verif/Rom` | all verifiers with `GenerateChallenge`, SHA-256 replaced by a random function |
| G concrete instances | `Verif/Real` | layers C, D, E together: `TestCurve` with SHA-256 |

Layer C is written over a record of the operations of Go's `elliptic.Curve` interface plus
`ScalarBaseMultH`, exactly as the Go code calls them (on pairs of integers and byte
strings). The specification of that record (`Lawful`) says that the operations
implement a group of prime order N under an injective coordinate encoding in which two
points have the same first coordinate exactly when they are equal up to sign. Layers D and E
prove that the modelled `KoblitzCurve` and `TestCurve`, limb arithmetic and tables included, meet this
specification (`Zk.Curve.lawful`), so that the protocol theorems hold for the real curve, not only
for an abstract group.

The two tables of precomputed points are transcribed by `tools/gen_tables.py` into
`lean/Verif/Curve/Data`, one number per row. All 16384 entries are checked by the kernel against
the group law (`Verif/Curve/Check*.lean`), so a wrong entry makes the build fail. Layer H checks the
same entries, word for word, against the model of the program that generated them: the kernel compares
numbers (`Verif/Gen/Check*.lean`), and `Verif/Gen/ExactLemmas.lean` shows that the words of a product or
a normalised value are determined by these numbers (`Red` in `Verif/Field/Mag.lean`).

As a test of the transcription, `Verif/Field/Vectors1.lean` and `Vectors2.lean` (written by `tools/gen_vectors.py`) evaluate
the model on all test vectors of `btcec/field_test.go`, and `Verif/Ec/Vectors.lean` on two published vectors for
RFC 6979 signatures; the results agree.

Layers D and E treat field values as values. `btcec/btcec.go` passes pointers, and passes the same pointer
as operand and result. Layer I models the same routines on a memory and shows that the values of layer E
come out (C118-C120). Layer J does the same for the `*big.Int` pointers of layer C: every number is a cell,
points and proofs are copied by copying pointers, methods of `big.Int` write to their receiver. Its functions
do what those of layer C do and keep every cell there was (C126, C127), whatever pointers are equal; the operations of the curve are functions on values
that return new numbers (except `Add` with (0, 0), which returns its argument), and the secret scalars are
not nil. A function is the sequence of its accesses to memory (`M` in `Verif/Mem/Model.lean`). C126-C128 run a
function on its own, with the goroutines of the range proofs one after the other. `Verif/Mem/Par.lean` is a
machine on which any number of goroutines of a client make calls and the range functions start their own
goroutines; each access to a number or to a variable of `proverInternalData`, each `Add`, `Done` and `Wait`, each
send and receive is one step, and any goroutine may take the next step (C129-C132). A client makes numbers,
looks at them and passes pointers and results to later calls; it does not overwrite numbers, and its goroutines
share only what was there at the start. A data race is a reachable state in which two goroutines are about to
access the same place, one of them writing; for sequentially consistent executions this is equivalent to two
conflicting accesses that no synchronisation orders, and the Go memory model promises sequential consistency for
programs without races. Local variables of a goroutine (`Rpoints` of `Verify`) are values, and the two texts
that `Verify` returns for nil entries are one. `big.Int` in layers A, B, F and H is a value: every in-place update there acts on a number
allocated in the same function, which was checked by reading.

Layer C proves special soundness: what follows from two or three accepted proofs with the same random
commitments. Layer K says what this means for one proof when SHA-256 is a random function (random oracle). A
prover is a tree of questions to the hash function with an output at each leaf (`Adv`); it is deterministic
and unbounded, so that the results hold for each choice of its coins. The hash function is drawn uniformly from
all functions from a finite set of strings to strings of 32 bytes; the set contains everything the
prover and then the verifier can ask (`Adv.asked`). `Verif/Rom/Fork.lean` and `Verif/Rom/Runs.lean` prove the forking lemma
for any number of runs: the questions up to the verifier's are answered as before, all others anew.
Coordinates are hashed without their lengths, so the same string may stand for several pairs of commitments;
the bounds pay for this with a factor 33 per coordinate. The proofs hold for all lawful curves with coordinates
below 2^256, and `TestCurve` is one.
A range proof has one hash per bit and one for the whole proof, and the prover may ask for them in any order. There
(C140) the prover is extended by the verifier's questions for the bits, and each bit gets its own second run, with new
answers from the later of its two questions on. All second runs share the first one, so the simple form of the
forking lemma does not do; `Verif/Rom/Heavy.lean` proves that, apart from a set of small probability, a successful run
has many successful continuations for all bits. ABC proofs, with one hash for the proof and one for the disjunctive proof
in it, are done in the same way (C141).
The same layer has the converse view (C137-C139): a distinguisher asks questions and gets proofs, by the prover with
uniform draws or by a simulator after which the hash function is changed at the string of the proof. The
responses of disjunctive, range and ABC proofs reveal the witness (C44, C57, C87, C144), so this fails for them; what
would hold with reduced responses is shown for disjunctive proofs (`Verif/Rom/DisjZk.lean`), and with only l reduced for
ABC proofs of values other than 0 (`Verif/Rom/ValueProps.lean`).

The refutations of layer C hold on every lawful curve, but some choose the hash function. Layer G shows
the same failures for `TestCurve` and SHA-256 (theorems `Cnn_testcurve_...`), by computing the
coordinates and the hashes in the kernel. Not shown there: the failure of C52, which needs a hash value of
at least N.

## What is found false

Reading the code showed that several of the properties a user relies on are false. For those the
Lean development proves the negation with an explicit witness, and a `_partial` theorem
with the strongest true version. The list:

* `ECPoint.Equal` compares `p2.Y` with itself, so it ignores Y: P equals -P. (C17, C24, C35)
* `Mult` dispatches on `Equal`, so `Mult(-G, s)` returns `s*G`; and for `TestCurve.H` it uses a
  table built for another base point. (C19, C27, C62)
* Equivalence proofs exist for logarithms x and -x. (C35)
* `InequalityProof.Verify` accepts proofs for equal values (the other branch of the ABC
  disjunction). (C50)
* An honest inequality proof for the values 4 and 5, both with blinding factor 0, is rejected. (C49)
* Disjunctive, ABC and range provers publish responses that are not reduced modulo N. The size
  of the responses shows which side or bit is real, and the quotient gives the witness. (C44, C57)
* `NewRangeProof` accepts 2^40. `Verify` does not check the number of tuples. (C53, C55, C56)
* The range verifier compares its challenge, reduced, with the hash, unreduced; starts one goroutine per
  tuple; indexes a table of 64 entries with the tuple number; and returns at a nil tuple while its
  goroutines block on a channel of capacity 10. (C52, C54, C55, C56)
* Range proofs bind a commitment only up to sign. (C85)
* Provers and deserializers panic on some inputs. (C15, C16, C48, C51, C56, C79, C91)
* `ReadVarBytes` ignores `maxAllowed`. (C06)
* The challenge hashes points without length or padding. (C59)
* `TestCurve.H` is a public multiple of G. (C61)
* `signRFC6979` reduces R only if it is greater than N, not if it is equal. (C80, C81)
* `ParsePubKey` accepts a prefix 5. DER strings may have trailing bytes. (C90, C93)
* Key recovery does not check that its point is on the curve, its check of the order never fails, it
  panics for R = 0 and accepts S = 0. (C91, C92, C103, C104)
* Signatures are malleable; the hash is read as a number. (C94, C106)
* Shared secrets lose leading zeros. (C97)
* `Encrypt` may write behind the message; padding is not validated (which the MAC makes harmless). (C100, C102)
* Responses of proofs are not checked to be in range, and `CToken` of an ABC proof is not checked at all, so
  proofs are malleable; equivalence, consistency, disjunctive and ABC proofs stay valid with negated responses. (C121)
* `NewRangeProof` drops the errors of its goroutines and panics if the random source fails. (C124)
* `Add` and `Sub` may return their argument, `Neg` shares its first coordinate: a client that writes to the
  result can change the generator. (C128)
* `RangeProof.Verify` with a proof whose first tuple has no `Y` and whose second tuple is nil returns false with
  an error; the goroutine it has started for the first tuple then dereferences the nil pointer, and the process
  crashes although the call has returned and a caller's `recover` cannot help. (C131)
* `Mult` treats H as another point also in the verifiers: range proofs of 40 tuples exist for (2^40-1)G + H, which on
  `TestCurve` is a commitment to a known value of 256 bits; and the library proves that Mult(H, 1) has logarithm 1
  to the base H, though it is another point. (C142, C143)
* An ABC proof for the value 0 publishes the secret key: it is the quotient of two numbers of the nested proof, up to a
  few trials. (C144)
* An inequality proof, and an ABC proof for a value other than 0, lets an observer test guesses: about 257 candidates for
  the difference of the values, or for the value, remain. (C87, C145)
* The audit of averages of `TestAverages_Basic`, the use of the library that its tests show: since `CToken` is not checked, a
  bank has any number of transactions accepted. Since signs are not checked and `Mult` treats H as another point, a bank
  on `TestCurve` has a wrong sum accepted, with two transactions whose consistency and ABC proofs are accepted. Rarely,
  an honest bank fails. (C149, C150, C151)
* A proof made with the value 1 for the commitment to -1 without blinding is accepted. (C152)
* `TestBreakABCProve` gives the points of the nested proof in the wrong order, and would be passed for an honest proof
  as well. (C153)
* Anyone who can send a proof can crash a verifier: a coordinate of more than 32 bytes passes every deserializer, and
  `SetByteSlice` then writes at a negative index; `ReadECPoint` asks for at most 32 bytes, but see C06. For ABC and range
  proofs not even a hash has to fit. (C154)
* No verifier checks that points lie on the curve. On `TestCurve` with SHA-256 a program that is given a commitment, but
  neither its value nor its blinding factor, makes an accepted range proof of 40 tuples for it: `Mult` takes (p, p) to
  (0, 0), and (0, y) too for a third of the scalars, and sums of such points reach every first coordinate. (C155)
* For the same reason GSPFS, equivalence, consistency, disjunctive and ABC proofs about (p, p) are accepted, a point that
  is no multiple of a base and no commitment; a disjunctive proof with it proves any second alternative. (C156)
* The bit commitment C of an accepted ABC proof can be wrong: for a commitment to 0 it can be (p, p), which commits to
  nothing; for a commitment to 5 with blinding factor 0, whose token is 0, it can be a commitment to 0. (C157)
* The read functions return `io.EOF` also for some inputs cut in the middle of a value: behind the first byte of a long
  VarInt, behind a length, between the coordinates of a point. (C159)
- `NewRangeProofFromBytes` allocates and fills as many tuples as the input announces: 13 bytes give a proof of any
  number of empty tuples and no error. (C161)
- Proofs with missing parts can be accepted: a GSPFS proof whose base has only the X coordinate of G or H, an
  ABC or inequality proof whose token is nil, a range proof whose aggregate (and a commitment that) has no Y.
  Serializing them panics. (C162)
* `sqrt` of the generator panics for 0 and does not end for numbers one less than a square. (C110)

## Per property plan

| id | modelled / proved how |
|---|---|
| C01-C04 | byte-list model of `ReadVarInt`/`WriteVarInt`; case analysis on the four classes, little-endian lemmas |
| C05, C06 | byte-list model of `ReadVarBytes`; C06 refuted by a witness, exact behaviour proved |
| C07, C08 | state machine of buffers, free list and goroutines with arbitrary programs of primitive operations; inductive invariant over all reachable states; values read/written shown independent of stale contents |
| C09, C10 | model of `WriteECPoint` etc.; big-endian bytes lemma |
| C11-C13 | model of each `Bytes`/`FromBytes`; compose C09, C10; induction on the number of tuples |
| C14 | prefix analysis of each reader; induction along the sequence of fields |
| C15, C16 | refuted by witness inputs; exact panic conditions of the readers, a class of bytes on which no deserializer panics, and truncated range proofs as partial theorems |
| C17, C18 | `Equal` on encoded points; C17 refuted by P, -P |
| C19, C20 | `Mult` characterised for all points of a lawful curve; refuted for -G and for H of the real curve |
| C21 | `Add`/`Sub`/`Neg` refine the group operations |
| C22-C26 | group algebra from C18-C21; C24 by explicit logarithm formula; C25 as bijection |
| C27-C31 | prover/verifier models; algebra in a module over Z/N; C30 as equality of multisets of transcripts |
| C32-C36 | same; C34 by pigeonhole on signs; C35 refuted by a forgery for every statement of the form x, -x |
| C37-C40 | same |
| C41-C44 | same; C44 refuted by the size of S1, S2; partial: the transcripts modulo N have equal distributions for both sides; with probabilities in `Verif/Rom/LeakProps.lean`; zero knowledge with reduced responses in `Verif/Rom/DisjZk.lean` |
| C45-C48 | same; C48 refuted; C27, C32, C37, C41 and C45 also with probabilities: the draws for which they fail are counted (`Verif/Rom/CompleteProps.lean`) |
| C49-C51 | same; C49 refuted at values 4 and 5 with blinding factors 0, and shown to fail with probability at most 15 / N for uniform draws; C50 refuted by an ABC Left proof, what remains is C50_keyholder_partial |
| C52-C57 | sequential model of prover and verifier plus state machines for the goroutines, shown to give the sequential result on every schedule; C52, C53, C55, C56, C57 refuted by witnesses; C57 partial: equality of multisets of per-bit transcripts; with probabilities in `Verif/Rom/RangeLeakProps.lean`: on `TestCurve` an observer finds the value from the proof alone with probability at least 99/100; C52 with probabilities: for a random hash function and uniform draws a union bound over the unlucky draws and answers; the inner challenges are bounded by shifting j, the outer one by the lemma on lucky answers |
| C84-C88 | C84, C85, C86, C87 refuted by witnesses; partial for C87: multisets of transcripts with reduced responses; with probabilities, and zero knowledge if only l were reduced (average over B), in `Verif/Rom/ValueProps.lean`; C88 by extraction from two transcripts |
| C58, C59 | direct; C59 refuted by a collision, partial for full-length coordinates |
| C60-C62 | evaluation on the modelled curve; C61 is not expressible as such (knowledge), its failure is shown by exhibiting k |
| C63-C67 | limb-level model with UInt32/UInt64 wrap-around; bounds and a polynomial identity modulo p |
| C68-C73 | Jacobian formulas to affine group law of Mathlib (`WeierstrassCurve.Affine.Point`); loops by induction |
| C74 | primality certificates (Lucas/Pocklington) checked in the kernel; order from N*G = 0, a crude bound on the number of points and absence of 2-torsion |
| C75-C78, C82, C96, C98, C105, C107, C108 | byte-level models of parsing and serialization over the curve of layer E |
| C79, C90-C94, C97, C100, C102-C104, C106 | refuted by witnesses; exact behaviour as partial theorems |
| C80, C81, C95, C99 | ECDSA over the curve of layer E, with HMAC and SHA-256 written out; the loop of RFC 6979 is bounded by an argument; C80, C81 partial because of nonces whose point has x = N |
| C83, C101, C109 | SHA-512 and the AES block functions are arbitrary functions, assumed to have the right lengths and to be inverse to each other (`LibOk`); CBC, HMAC and the format are modelled |
| C89 | evaluation in the kernel |
| C110-C112 | loops with a bound as argument; Newton iteration and extended Euclid by invariants; C110 refuted for 0 and s^2 - 1; C112 by evaluation |
| C113 | the generator refines the group law, by induction over bits and doublings |
| C114, C115 | kernel comparison of all entries with the addition formulas, exact limb results as above |
| C116 | byte-list model of loader and serializer |
| C117 | exact description of the result of the reduction in `Mul2`/`SquareVal` |
| C118 | each formula with its writes, all pointers symbolic, compared with the value-level formula; then C69 |
| C119, C120 | invariant relating memory and value-level loop state; the rest of memory unchanged |
| C121 | refuted by changed responses; exact set of accepted responses for three proofs from the group law |
| C122 | the statement is a suffix or infix of the hashed bytes, which are of fixed length; equal challenges of different bytes are a collision of exactly these two inputs (that some collision exists would say nothing) |
| C123 | the provers' results have all fields and non-negative coordinates; then C11-C13 and the completeness theorems |
| C124 | provers again with draws that may fail (`Verif/Range/Rand.lean`), equal to the others if none fails; range prover under all schedules; `NewPrivateKey` and `Encrypt` in `Verif/Ec/RandProps.lean` |
| C125 | state machine of `sync.Once` (flag, lock, goroutines) with arbitrary statements in `initAll`; inductive invariant |
| C126-C128 | functions with pointers related to the functions on values by one refinement lemma per function; statements about a type of all calls |
| C129-C132 | goroutine machine on memory; weakest preconditions in which every goroutine owns the numbers it has made and not yet handed over, an invariant over all goroutines (`Verif/Mem/ParRun.lean`); ending by a multiset order on the goroutines' remaining computations (`Relation.CutExpand`); C131 refuted by a schedule in which a goroutine of a verifier that has returned panics |
| C133-C136 | forking lemma: runs that agree up to a question all succeed at least as often as independent ones (power mean inequality), union bound over the place of the verifier's question and the sizes of the coordinates, answers with the same challenge counted; then C29, C34, C39, C43. False equivalence statements: each question is lucky for at most two challenges per pair of commitments |
| C140 | heavy rows: runs with few successful continuations have small probability (invariance of the counting measure under drawing answers again); three cases for the order of the two questions of a bit: inner last gives a 0 bit, outer last a 1 bit, both the same string a logarithm; six kinds of tuples with points that `Mult` confuses: the products are known combinations of G and the base for H, so all pairs of kinds give a logarithm but for 111 challenges; the exception 2^i G + H is C142; the bits add up as in C88; `k` tries per bit |
| C141 | heavy rows for both questions; two new runs from the outer question (three challenges, pigeonhole on the signs of the two equations as in C47), one from the inner question (C43); both parts speak about the same C, which is in both strings; if v = 0 they give a relation between G and H (cases for the points that `Mult` confuses) |
| C142 | refuted on `TestCurve` by an explicit attacker program with library operations, run in the model for every hash function; the value from C61; partial (`Verif/Rom/BindProps.lean`): the extractor of C140 and another opening give the logarithm of G |
| C143 | refuted on `TestCurve` by C32 and C62 |
| C144 | the key is the witness of the nested disjunctive proof; C44 for any size of the challenge, and the number of answers that give a small one; for other values the simulation of C137-C139, where the distinguisher itself asks the question of the nested proof |
| C145 | an inequality proof is the ABC proof for the differences, so C87 and C144 apply; C50 with probabilities from C141 (`Verif/Rom/IneqProps.lean`) |
| C146 | strings as byte lists, encoding/hex and `SetString` of math/big modelled for base 16 (`Verif/Text/`); facts about single characters by evaluation over all bytes |
| C147 | encoding/base64 modelled, its round trip proved; compress/zlib a parameter; then C114. Compiling is not modelled: the dummy strings of gensecp256k1.go:23-24 clash with those of secp256k1.go and secp256k1H.go unless these are removed first |
| C148 | byte-list model; injectivity of base-256 digits |
| C149 | sums of points by induction over the transactions, then C32; refuted by a blinding factor with which the base is H; probability by counting the draws that give special points |
| C150 | refuted: the bank solves for the token, C121 and C32 do the rest; the partial theorem by C134, since a related pair gives the logarithm |
| C151 | refuted by an explicit attacker program, run in the model for every hash function; existence of the numbers by counting special points; the partial theorem as for C150 |
| C152 | acceptance forces one of two linear equations in the challenge, hence at most two challenges; probability with one fresh answer of the random function; refuted by the commitment to -1 without blinding |
| C153 | the proof of TestBreakABCProve with the factor and the order of points as parameters; acceptance forces one of two linear equations in the challenge of the nested proof, or equal answers to different strings; the order of the test contradicts the first equation of the nested proof |
| C154 | the verifiers of layer C on the parameters of layer E, with points that need not be on the curve. Every curve operation returns for coordinates of at most 32 bytes, with such coordinates; `SetByteSlice` panics for longer ones. The deserialized proof is the one of C11-C13 |
| C155 | refuted by an explicit attacker program, run in the model: `ScalarMult` of (0, y) by the invariant of C59 in the group with three elements, as (0, y) has order 3 for the formulas whether it is on the curve or not; `Add` is the chord formula for all points; a usable pair of chords is among 22 trials, by degrees of polynomials; the responses for SHA-256 by evaluation in the kernel. The partial theorem is for points of the curve (`Verif/Offcurve/`) |
| C156 | refuted for every hash function: `Mult` takes (p, p) to (0, 0), so the challenge drops out of the equations. Partial theorem for GSPFS proofs: the verifier's last comparison |
| C157 | refuted for every hash function: (p, p) as in C156, and, with points of the curve, by the token 0, which is a known multiple of every commitment. Partial theorem from C47: the numbers it gives are the ones committed to, or give the logarithm of G to the base hb; with C141 also for a random SHA-256, as openings that four runs of the prover give |
| C158 | a reader is the list of the pieces it delivers, each perhaps with an error; `io.ReadFull` is modelled with its loop. Simulation between this model and the byte-list model, function by function. Left out: a reader that returns `0, nil` for ever |
| C159 | same model; refuted by concrete inputs, the inputs that give `io.EOF` characterised exactly for all four functions |
| C160 | a writer is any state machine with the contract of `io.Writer` as hypothesis; by cases on the write that fails |
| C161 | sizes of the returned structures defined beside the theorems; refuted by a family of inputs of at most 13 bytes, bounds on the numbers and on the complete tuples by counting what each reader consumes |
| C162 | refuted by three accepted proofs whose `Bytes` panics (GSPFS base with one coordinate, ABC proof without token, range proof without aggregate Y); what must be there by following which pointers each verifier reads before it accepts; for range proofs an invariant of the schedules |
| C163 | RFC 6979 and HMAC written down beside the theorem (digits, a sequence of candidates, first one in range); octet strings compared by length and value, the loop by induction on the rounds; SHA-256 itself is the definition of the model |
| C164 | the provers with pointers for the secrets; those that read all their secrets in their first lines are wrappers around the functions of the model (their part holds by definition), `NewABCProof` and `NewInequalityProof` are written out with the order of the reads; equal to the functions of the model on secrets that are there. That no proof is made holds for any parameters, the choice between panic and error for those whose H is a point |
| C137-C139 | a measure-preserving bijection (draw, answers) ↔ (simulator's draw, answer, answers elsewhere); the games differ only if the string of the proof was asked before, which is bounded by the number of draws with that string (sizes of coordinates); many proofs: hybrids, with the simulated proofs turned into a table of answers |

## Trusted base

Lean 4.33.0 kernel, Mathlib definitions used in statements, the three standard axioms
(`propext`, `Classical.choice`, `Quot.sound`); the correspondence between Go text and model,
which is by reading. No own axioms, no `sorry`, no `native_decide`, no `bv_decide`.

Not modelled: failures of crypto/rand apart from C124 (elsewhere draws succeed), weak memory (C125 and the
goroutines of the range proofs use sequential consistency), AES
itself, SHA-512, the DER syntax beyond what the code reads, timing, logging, memory exhaustion apart from `maxAlloc`, the base64/zlib decoding of
the committed table strings (the decoded numbers are taken as the data; C147 shows that regenerated
strings give the same numbers if compress/zlib is correct).

## How to read seeded/LOG.jsonl

`failed` was made by two scripts from the errors of the build, and means two things.

- For about 195 entries, mostly the earlier ones, it lists the property theorems that have no proof after the edit. A theorem
  that only uses a lemma that fails is listed too.
- For about 155 entries it lists the declarations with errors in the first module that fails. The build was stopped
  there, so later modules are not covered, and the list can consist of lemmas and examples.

That a theorem is listed shows that its proof breaks. It does not show that the theorem is false for the edited
program; a true statement is listed as well if its proof depended on the form of the definition.

Both scripts took an error on a doc comment for one of the declaration above it. This was found late. Of the second
kind, three entries named a wrong theorem and were corrected from the recorded positions of the errors; in two
entries only the first five positions were recorded. Of the first kind no positions were recorded; 22 entries in
which a declaration is listed next to its predecessor were suspected, and 18 of them were run again with the
corrected script, which confirmed the suspected declarations. Not run again: `Zk.Field.add2` (word not added), `Zk.Field.square10` (one
squaring too few), `Zk.Field.setBytes32` (mask of two bits widened to four) and `Zk.Curve.addJacobian` (first operand
infinity not treated). Their lists may contain a theorem too many. All edits in the log with a list that is not empty
did break the build.
