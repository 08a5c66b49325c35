# Formal model of takakv/msc-poc in Lean 4 — design

## 1. What the code is

`msc-poc` proves in zero knowledge that an ElGamal-encrypted ballot holds a candidate number in a range:
two Bulletproofs range proofs on an elliptic curve plus a sigma protocol that ties the two curve commitments to
an ElGamal ciphertext in a 3072-bit safe-prime group. The model covers every Go file of the repository,
including what the program prints (C67) and the tests of the packages (C68), except timing measurements.

## 2. Modelling conventions

| Go | Lean |
|---|---|
| `*big.Int` | `Int`; where nil is possible (decoded proofs) `Option Int` |
| runtime panic (nil dereference, slice bounds, explicit `panic`, stack exhaustion) | `none` in `Option` |
| `(T, error)` | `Except String T` (inside `Option` when it can also panic) |
| ignored error with nil slice result | the empty list (a nil slice behaves like an empty one) |
| ignored error with nil interface result | `none`, i.e. every later use panics |
| `big.Int.Mod/Div` (Euclidean) | `Int.emod/ediv` |
| `big.Int.ModInverse` returning nil | `modInverse : Option Int` |
| `uint8/uint16/int64` where wrap-around matters | `UInt8/UInt16/BitVec 64` |
| `group.Group`/`group.Element` interfaces | record `Grp E` of operations over a carrier `E` |
| receiver mutation `x.Op(a,b)` | value returned; receiver's previous value is an argument when the code reads it; heap model in `Model/Heap.lean` for aliasing properties |
| `crypto/rand` | explicit arguments / a tape |
| `crypto/sha256` | an arbitrary function `sha : Bytes → Bytes`, 32-byte output assumed only where stated; the real one in `Model/Sha2.lean`, used in C60 |
| JSON text | `List Char`, decoded from bytes in `Model/Utf8.lean` (invalid bytes read as U+FFFD, as in Go); scanner and printer modelled in `Model/JsonText.lean`, producing syntax trees; key resolution, repeated and missing keys, null and number ranges are modelled on trees. Texts of nested raw messages are the subtrees. The literal `-0` is a document of its own (zero, but refused for unsigned fields) |

## 3. Modules

- `Verif/Model/*` — the model; each definition cites the Go lines.
- `Verif/Spec/*` — small independent specifications (mathematical, no model helpers beyond the interface record).
- `Verif/Lemmas/*` — helper lemmas.
- `Verif/Props/*` — property theorems `Cnn_…`, and beside them `example`s showing the hypotheses are met.
- `Verif/Toy.lean` — the additive group of integers mod q as a computable lawful group for non-vacuity.

## 4. Trusted base

- Lean 4.33.0 kernel; axioms at most `propext`, `Classical.choice`, `Quot.sound` (audited by `Verif/Audit.lean`).
- Reading of the Go code, of Go's `math/big`, `encoding/json`, slices, and of the external libraries below.
- circl `group.P256/P384` arithmetic: modelled in `Model/Curve.lean` as textbook affine arithmetic on coordinates, and
  then *proved* to be a group of prime order N. That circl computes this is trusted. Its hash-to-curve is an arbitrary function
  returning curve points up to C59; `Model/HashToCurve.lean` models it (RFC 9380) and C60 proves that it returns curve points. ing-bank's `p256` (secp256k1) is treated in the same way, with nil-able coordinates and both
  forms of the identity (C55); its hash must return points whose x fills 32 bytes on the seeds used, which C66 computes.  circl `Ristretto255`
  is modelled in `Model/Ristretto.lean` as affine arithmetic on the twisted Edwards curve, with the equality test of
  go-ristretto, and proved to be a group of prime order N up to that test (C59); its hash must return doubles of curve
  points on the seeds used, which C65 proves of the map of RFC 9496.  Theorems about proofs are stated for any `GP` with `Lawful GP q M` — the operations implement
  a module over `ZMod q` — and all five groups of the repository are instances.
  `Lawful` is also proved for the safe-prime group, from the modelled Go code, and for the toy group. Scalars are assumed to be reduced mod the order by
  the libraries (`SetBigInt`).
- circl's short-Weierstrass `MarshalBinary/UnmarshalBinary` are modelled (identity = one zero byte, uncompressed
  point = 0x04‖x‖y, curve check), as documented by circl; ristretto's encoding is an abstract 32-byte string, and the one of RFC 9496 in C65.
- ing-bank helpers `bn.*`, `intconversion.BigFromBase10` are read as thin wrappers of `math/big`;
  `byteconversion.FromByteArray` as signed (two's complement) decoding, without which the recorded ballots would not verify.
- Output of the real program as a check of the model: both ballots in testdata decode and their range and sigma proofs are accepted by
  the model, with real SHA-256 and hash-to-curve, evaluated by the kernel (C69).
- Discrete-log hardness is never assumed: soundness theorems produce the relation explicitly.

Not modelled: running time, side channels, statistical quality of randomness, memory exhaustion, goroutines (there are none).

## 5. Properties: model and proof plan

- C01 `Model/ModP.lean`: integers with Go's Mul/Mod/Exp/ModInverse. Show `Lawful` with M = the q-torsion of (Z/p)ˣ; reachable elements by induction over API calls.
- C02 `Model/Heap.lean`: heap of big.Ints, in-place operations as two-step writes; frame + functional result for all address coincidences.
- C03 `check`/`equals` modelled with explicit group descriptors; iff.
- C04, C05 codecs on integers; sign attack through the sigma equations in ZMod p.
- C06, C07 byte-level model of MarshalJSON/UnmarshalJSON with slice bounds and `copy`; round trip by digit lemmas.
- C08, C09 same for secp256k1 (nil-able coordinates) and ristretto.
- C10 induction on the length. C11, C12 list induction. C13 bit-vector reasoning reduced to Nat; C14 case analysis on it.
- C15 injectivity of decimal printing; C16 induction on k with a loop invariant; C17 induction on k; closed form by bits.
- C18, C19, C23 one exact lemma: for arbitrary committed vectors aL,aR the produced proof verifies iff a scalar identity holds.
- C20, C21, C22 direct from the model and `Lawful`. C24 exact condition, plus a concrete rejected run.
- C25 module algebra over ZMod q. C26 shape analysis. C27, C28 arithmetic.
- C29–C35, C38 sigma protocol: exact acceptance (C32) then algebra; C34 integer no-wrap-around; C31/C35 bijections.
- C36, C37, C43 attacks: constructive theorems on the verifier model.
- C39–C42 ElGamal, castVote/verifyVote, UInt16 wrap-around.
- C44, C45 JSON trees. C46 fold over iterations. C47, C48 kernel arithmetic on the constants: Pocklington certificates for the curve constants; for the 3072-bit
  (p-1)/2 the elliptic-curve criterion (`Lemmas/ECPP.lean`) with 66 steps (`Lemmas/RfcCert1–6.lean`), so that no theorem assumes primality.
- C49 challenge agreement (pure model) and frame property (heap model).
- C50 one-round extraction by linear algebra over ZMod q, then induction over the tree of transcripts.
- C51 Mathlib's group law for Weierstrass curves; refinement of the coordinate formulas (Jacobian formulas for the
  computations); number of points from one point of large prime order and absence of 2-torsion.
- C52 instances of C41, C42, C44, C47, C25 for the groups of C51.
- C53 the prover split at its only secret-dependent part: proof = function of (V, A, S, T1, T2, l, r, taux, mu); an
  explicit involutive exchange of randomness keeps all of them while the secret changes.
- C54 `Model/Main.lean`; prover totality (C18), induction over the tape and over the iterations.
- C55 `Model/Curve.lean` (`k1Grp`); the affine arithmetic is shared with P-256/P-384, the order is `k1_card`.
- C56 the three checks of the aggregated verifier as group equations (`multiChecks_core`), then explicit shifts/forgeries.
- C57 `Model/Rand.lean`: `rand.Int` on bytes, one block at a time; an involution on tapes exchanges two outcomes, hence
  uniformity; `castVoteB` (bytes) refines `castVote` (numbers) by inversion of the draws.
- C58 `Model/HeapProve.lean`: prover, caster, server and driver on heaps with pointers; relational Hoare triples (`Spec`,
  `Spec2`, `SpecO`) with an empty write set; induction over the requests.
- C59 `Model/Ristretto.lean`: Edwards addition is complete (−1 square, d not), associative by a polynomial identity with explicit
  cofactors; equality test ⟺ 4P = 4Q; number of points by 8N | card ≤ 2p < 16N; `Lawful` on doubles with den P = 4P.
- C60 `Model/Sha2.lean`, `Model/HashToCurve.lean`: Euler's criterion, g(x2) = Z^3 u^6 g(x1), root by exponent (p+1)/4; generators by
  kernel evaluation against `Spec/Recorded.lean`.
- C61 `Model/JsonText.lean` against the grammar `Spec/JsonGrammar.lean`: soundness and completeness of the scanner by induction on fuel;
  the printer lands in the grammar; cut and trailing texts by uniqueness of the object at the head of a text.
- C62 extractor `Spec/BpExtract.lean` on scalars, over the one of C50; the weak relation are the coefficients of a polynomial of
  degree N+1 in the challenge; tightness by `proveFrom_exact`.
- C63 compressed points (`Model/Decompress.lean`): decoding against an inductive description of the SEC 1 formats; roots from
  Euler's criterion for p = 3 mod 4 (lemmas of C60).
- C64 `Model/Objects.lean`: element structures and their `val` cells in one memory; simulation of `Spec/Objects.lean` (values without
  pointers) call by call, invariant: no two elements share a cell.
- C65 `Model/RistrettoEnc.lean`: encoding, decoding and the Elligator map of RFC 9496.  `Lemmas/RistrettoAlg.lean` proves over any
  field with a choice of signs that a class of doubles modulo the 4-torsion has one representative with `x`, `xy` even, `y ≠ 0`
  and that `s` determines it; a point is a double exactly if `(1-y)/(1+y)` is a square, which gives decoding and the map.
- C66 `Model/K1Hash.lean`: ing-bank's search for a point.  The values on the 34 seeds (`Spec/K1Values.lean`) are checked by kernel
  evaluation of the model of SHA-256 and of modular powers.
- C67 `Model/MainOut.lean`: the lines `main` prints; the text of a good run is `Spec/MainOut.lean`.  Everything about one group is
  C54 (C55, C59, C60, C65, C66 for the hypotheses).  The lines "Aborted" of the vote prover are counted by `sigmaAborts`; with the
  deployed bounds a mask away from the ends is never discarded and one up to 2^240 - 2^235 always is.
- C68 `Model/Tests.lean`: the repository's tests as functions of their draws (`GroupDraws`, `BPRand`), with `none` for a panic. On
  Ristretto255 the element is the point, `r255Bin`/`r255Json` are its encodings by RFC 9496.
- C69 `Spec/RecordedBallot.lean`: the two ballots in testdata as JSON documents. This ties the model to output of the real program:
  `BPChecked`/`SigmaChecked` list what has to be computed (digests, sums of multiples by `mexpZero`, a joint double-and-add in Jacobian
  coordinates, powers by `powMod`), `Lemmas/Recorded256.lean`, `Recorded384.lean` evaluate them in the kernel, and `BPChecked.verify`,
  `SigmaChecked.verify` carry the result to the model's `verify`. The files were recorded with the range 101 … 1000 and 128-bit challenges.
- C70 `Model/NilTail.lean`: decoder and verifier with nil entries in `Hh` and `R`; equations with the functions without them.
- C71 each field is decoded from the list of all its values (`fieldVals`); the members of a nested object are those of all
  occurrences, in order.
- C72 composes C33/C34 and C62 to the whole ballot: `ballotExtract` (`Spec/BallotExtract.lean`) gets the answers of two vote proofs and two
  trees of range proofs; `Props/BallotSoundEx.lean` evaluates it on a concrete fork.
- C73 is an attack with honest range proofs: `splitBallot` (`Props/WeakFS.lean`) uses that the challenge is known before the statement.
- C74 counts draws: fibres of the released attempt (one sample per accepted reduced transcript, for any hash) over the runs of C53
  (`Props/BallotHiding.lean`).
- C75 decodes bytes before scanning; `C75_split` shows that this is the same as scanning bytes and decoding string literals. C76 holds the
  files of testdata line by line (`Spec/RecordedText.lean`); a layout printer reproduces them from C69's documents by reduction, and a
  general theorem says that every layout is a text of its document.
- C77 is the observer's side of C39: `setup` fixes the key 13, so opening is one congruence in public numbers (`Spec/Opening.lean`).
- C78 asks what a repair of C21–C23 would be worth. The challenges are parameters of prover and verifier (`Spec/BpRepaired.lean`), so the result does not depend on how digests become numbers, only on what is hashed.
- C79 is C38 for the other two transcripts. A transcript is unambiguous if equality under all `sha` gives equality of what was hashed; a single digest function, 1 on one message and 0 on all others, is enough for the proof.
- C80 is the extractor of C62 run on the repaired verifier of C78. What is computed at a node is shared (`Spec/BpExtract.lean`, two challenges `y`, `z`); only the shape of the tree and the last step differ: a polynomial in one variable there, in two here.
- C81 puts C80 under C72: the part of `C72_extract` about the vote proofs is stated for openings (`C72_openings`, `C72_in_range`) and used twice, with the extractor of the program's range proofs and with that of the repaired ones.
- C82 `Model/HeapSetup.lean`: `setup`, the driver and `main` on heaps; the triples of C58 continued to the allocation of the parameters, with the relation `SetupRel` saying which cells are new, different and shared.
- C83 puts the totality results together (C26 for inner-product proofs, the new `C83_range`, `C83_vote`) into the exact crash condition of the server. Time and memory are not modelled: that `Bb` lets a voter choose the size of a power of two is stated as the size of the number (`C83_power`), not as a crash.
- C84 is the decoder's half of C83: which documents panic before any proof is looked at. `BallotCrash` (Spec/DecCrash) speaks about raw messages, so the order of the checks and the dropped errors are part of the statement; the decoders of elements are a parameter, and `C84_points` instantiates them.
- C85 counts masks instead of assuming a distribution: `stillRunning` (Spec/Attempts) is the number of sequences of masks for which `castVote` is still running, all other draws being arbitrary but fixed. No assumption on the digest function is needed, because its output is only used through its length.
- C86 counts cells: `Creates` (Spec/Alloc) says how far a computation of the pointer model moves `next`. The exact counts need the shape of honest range proofs (lengths 16 and 4), which is carried along as `Shaped`; the bound for arbitrary ballots does not.
- C87 composes the decoder (bytes, nil entries kept) with the verifier as main_test.go does (`unmarshalAndVerify`, Model/Receive), and combines C70, C75, C83 and C84. `RangeStops` and `Checked` (Spec/Receive) speak of the document; `Parts` (Props/Receive) relates a document to its decoded ballot. main_test.go does not compile at this commit (verifyVote returns two values); the verdict is taken from the first.
- C88 uses that the raw messages of a document do not depend on the curve: `Parts` for two servers share them. The P-384 generator has a 48-byte x-coordinate, on which the P-256 decoder panics; `BadPoint` is antitone in the length, so a P-384 decoder panics on no document that a P-256 decoder survives. Collisions are explicit (`Collide` of the two hashed messages), an existence statement would be trivial.
- C89 reads ranges of numbers off the prover step by step (`Lemmas/Reduced.lean`; all reductions in the Go code are `Mod`, so the numbers are in range for every digest function and every draw) and the length of a printed document off its shape (`Lemmas/Size.lean`, one budget per field). `BallotData.Same` (Spec/Reduced) is equality up to multiples of the orders.
- C90 uses one fact about a codec (`Codec.Forgets`, Spec/Transport): decoding leaves the receiver as it was. With `Kq1`, `Kq2`, `H` and both `V` equal to the identity the two curve equations of the vote proof become `Z = c·lo = c·hi` modulo the order. For the bytes of an honest secp256k1 ballot the proof uses an auxiliary decoder `k1Back` that does invert `MarshalJSON`; what it decodes is complete (C87), hence so is what the real decoder sees.
- C91 composes C36 (change in memory), C44/C61/C75 (bytes there and back), C70/C87 (the server on bytes) and C77 (opening with public numbers) into one statement about bytes. `Carries` says that a ballot holds the election's parameters; both it and the legality of the elements survive the change.
- C92 splits `MultiBulletProof.Verify` at its three `fmt.Println` calls (Model/MultiOut.lean); a panic keeps the lines printed before. `Reaches65`, `Reaches67` and C83's condition for inner-product proofs say exactly how far it gets. Progress of `MultiProve` follows `proveFrom_agree`; `Props/MultiTotal.lean` has it for arbitrary digest functions (the run depends on the digest function only through the digests of values that the proof contains, `multiProve_congr`).
- C93 refines C57's byte-level runs: `Draw.Uses used a` says that a computation reads exactly `used` and returns `a` whatever follows; `Blocks max k` is the block length of `rand.Int`. Lower bound and attainment share the composition lemmas `Least` and `Within`.
- C94 extends the pointer model to aggregated proofs (`Model/HeapMulti.lean`), with the refinement calculus `Spec` of C49/C58; `BpReq` histories mix single and aggregated proofs made with the same parameters.
- C95 puts one switch at each of the two faulty lines of aggregated proofs (`Spec/MultiRepair.lean`); the four settings share one proof (`Lemmas/MultiRepair.lean`), and the setting with both switches off is the program.
- C96 repeats the exchange argument of C53 for `MultiProve` with either setting of line 86 (`Lemmas/MultiHide.lean`): a bijection between the random tapes of two lists of secrets that keeps the proof.
- C97 runs `MultiProve` on the byte stream (`Model/RandMulti.lean`), as C57 and C93 do for `castVote`.
- C98 turns the counts over drawn numbers of C53 and C96 into counts over byte strings (`Lemmas/RandUniform.lean`: sequences of uniform draws are uniform).
- C99 states hiding for arbitrary tests and for groups whose elements have several representations: `Looks` says which representations a reader cannot tell apart, `C53_test`/`C96_test` count the runs that pass a test.
- C100 restates C74 for arbitrary tests on ballots and for the four curves, by a hybrid argument over `C53_test`.
- C101 is C80 for several values, on the verifier of C95 with both edits (`Spec/MultiSound.lean`). An answer is rewritten as an answer for one value (`BpAns.asOne`), so the leaf lemma of C80 (`bpLeaf_ip`) is used as it is.
- C102 says what the aggregated verifier of the program does and does not prove (`Spec/MultiOpen.lean`): openings by interpolation (`openAll`), and a prover for arbitrary values (`multiForge`). It explains why C101 needs separate challenges even with the two lines corrected.
- C103 counts the hash values under which a first move of the vote proof can be completed at all (`answerable`, `Spec/VoteError.lean`). The digest function is replaced by a constant one, because the verifier hashes exactly once (`C103_digest`).
- C104 counts elements for aggregated proofs with `Creates` of `Spec/Alloc.lean`, as C86 does for the program.
- C105 (`Props/Copy.lean`) states ballot copying: the copier is the function `recastBytes`, which gets bytes and public parameters only.
- C106 (`Props/FirstMoves.lean`) is an equivalence that contains C36 and C105 as special cases; `otherBallot` says what is replaced.

Properties whose natural reading is false for the code (C05, C07, C08, C09, C13, C21–C24, C36–C38, C40, C43, C45, C46, C62, C70, C73, C77–C79, C83, C84, C89–C91, C105)
are stated as what the code actually does, with the expected guarantee named in the statement and refuted.
