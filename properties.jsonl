{"id": "C01", "title": "Safe-prime group obeys the group laws for every element and every integer scalar", "statement": "For a ModP group with safe prime p=2q+1 and a generator of order q: every element that can be produced by Generator, Identity, BaseScale, Scale, Add, Subtract and Negate is an integer v with 0<v<p and v^q=1 mod p; Add is commutative and associative with Identity neutral; Subtract(X,X) is the identity; Scale(X,s) for any integer s (negative, zero, larger than the order) equals the s-fold group operation and depends only on s mod q; Scale(X,a+b)=Scale(X,a)+Scale(X,b); IsEqual/IsIdentity decide equality of elements.", "quantifier": "all safe primes p, all generators of order q, all sequences of API calls, all integers s", "why_tests_cant": "The laws range over a 3072-bit group and unbounded integer scalars; the existing tests sample 128 random points.", "anchors": ["group/modsafeprime.go: ModPGroup, ModPElement.Add, Subtract, Negate, Scale, BaseScale, IsEqual, IsIdentity, NewModPGroup"]}
{"id": "C02", "title": "Receiver aliasing never corrupts a ModP result", "statement": "For Add, Subtract, Negate, Set, Scale and BaseScale on ModP elements, whatever of the receiver and the operands are the same object, the receiver ends up holding the operation applied to the values the operands had before the call, the call returns the receiver, and no other existing element changes.", "quantifier": "all heaps, all choices of receiver/operand objects (including all coincidences), all values, all scalars", "why_tests_cant": "Aliasing patterns times values is an unbounded product; the callers use x.Add(x,y) and x.Subtract(x,y) everywhere.", "anchors": ["group/modsafeprime.go: ModPElement.Add, Subtract, Negate, Set, Scale, BaseScale"]}
{"id": "C03", "title": "Mixing ModP groups panics, and only that does", "statement": "A binary ModP operation panics exactly when an operand belongs to a group with a different field order or different generator; with operands of the receiver's group it never panics.", "quantifier": "all ModP groups, all elements", "why_tests_cant": "A test fixes two groups; the claim is an iff over all groups.", "anchors": ["group/modsafeprime.go: ModPGroup.equals, ModPElement.check"]}
{"id": "C04", "title": "ModP elements survive binary and JSON transport", "statement": "For every ModP element value v>=0, UnmarshalBinary(MarshalBinary(v)) and UnmarshalJSON(MarshalJSON(v)) yield v.", "quantifier": "all non-negative values, any previous receiver value", "why_tests_cant": "Leading zero bytes and every length boundary must be covered for integers of any size.", "anchors": ["group/modsafeprime.go: MarshalBinary, UnmarshalBinary, MarshalJSON, UnmarshalJSON"]}
{"id": "C05", "title": "ModP decoding does not check group membership", "statement": "A user expects a decoded element to be a group element. It is not: for every integer v (zero, negative, >= p, or outside the order-q subgroup) UnmarshalJSON of the number v succeeds and yields v; and for even challenge the vote proof verifier accepts the ciphertext with U replaced by p-U (the non-member -U) whenever it accepts the original, although (for odd secret key) the changed ciphertext no longer decrypts to the same group element. On a decoded negative number -v (0 < v < p) Scale by s and Scale by -s are not inverse to each other for odd s: the product of the results is p-1.", "quantifier": "all integers v; all sigma proofs with even challenge, all commitments, all odd keys", "why_tests_cant": "The verdict equality must hold for every accepted transcript, not a sampled one.", "anchors": ["group/modsafeprime.go: UnmarshalJSON", "marshal.go: BallotUnmarshalJSON", "voteproof/voteproof.go: SigmaProof.Verify"]}
{"id": "C06", "title": "P-256 / P-384 points survive JSON transport", "statement": "For the point at infinity and every affine curve point (coordinates < p, on the curve), MarshalJSON succeeds and UnmarshalJSON of the result yields exactly that point with no error, whatever the receiver held before; distinct points have distinct encodings. The same holds for MarshalBinary/UnmarshalBinary.", "quantifier": "all points of either curve (including coordinates with any number of leading zero bytes)", "why_tests_cant": "About 2^256 / 2^384 points, short-coordinate cases have probability 2^-8 and smaller per extra zero byte.", "anchors": ["group/p256.go: MarshalJSON, UnmarshalJSON, MarshalBinary, UnmarshalBinary", "group/p384.go"]}
{"id": "C07", "title": "What the P-256/P-384 point decoder accepts, rejects and crashes on", "statement": "UnmarshalJSON on an object {x,y} of integers: it panics exactly when a coordinate is missing/null or when (the pair not being 0,0) x needs more than len+1 or y more than 2*len+1 bytes; when it reports success the receiver is the point at infinity or an affine point on the curve; when it reports an error the receiver is unchanged. Decoding is not injective: x and -x decode alike (and y and -y), so do x and x+4*256^len, and an oversized y overwrites whatever x was sent.", "quantifier": "all pairs of (possibly missing) integers, all receiver values", "why_tests_cant": "Input space is all JSON documents an untrusted voter may send.", "anchors": ["group/p256.go: UnmarshalJSON", "group/p384.go: UnmarshalJSON", "group/types.go: ECPoint"]}
{"id": "C08", "title": "secp256k1 binary and JSON transport is lossy", "statement": "A user expects Unmarshal(Marshal(P)) = P. For secp256k1: the binary round trip restores the point exactly when its X coordinate occupies the full 32 bytes (or the point is the nil infinity); otherwise it yields a different pair of coordinates or panics; UnmarshalJSON never changes its receiver, so the JSON round trip into a fresh element yields the zero element for every input.", "quantifier": "all coordinate pairs below 2^256", "why_tests_cant": "The failing points are a 1/256 fraction that a fixed test vector does not hit.", "anchors": ["group/p256k1.go: MarshalBinary, UnmarshalBinary, SetBytes, MarshalJSON, UnmarshalJSON"]}
{"id": "C09", "title": "Ristretto255 JSON transport is unusable", "statement": "For every 32-byte encoding whose first byte is non-zero MarshalJSON panics (slice out of range); for every encoding whose first byte is zero it produces the JSON of (0,0) regardless of the point, so distinct points collide.", "quantifier": "all 32-byte encodings", "why_tests_cant": "2^256 encodings.", "anchors": ["group/ristretto255.go: MarshalJSON"]}
{"id": "C10", "title": "Decompose is base-u positional decomposition", "statement": "For every integer x, base u>=2 and length l, Decompose returns l digits, each in [0,u), whose positional value is x mod u^l; hence it equals x exactly when 0<=x<u^l; digits are unique.", "quantifier": "all integers x (negative too), all bases u>=2 that fit int64, all lengths", "why_tests_cant": "Unbounded integers and lengths.", "anchors": ["util/util.go: Decompose"]}
{"id": "C11", "title": "computeAR is aL minus the all-ones vector and rejects non-bits", "statement": "On a vector of 0/1 entries the result is entrywise a-1 of the same length; it returns an error exactly when some entry is neither 0 nor 1.", "quantifier": "all int64 vectors", "why_tests_cant": "All lengths and entries.", "anchors": ["bulletproofs/bp.go: computeAR"]}
{"id": "C12", "title": "Vector arithmetic is componentwise modular arithmetic and length mismatches are reported", "statement": "VectorAdd, VectorSub, VectorMul, VectorScalarMul, VectorAddConst, VectorECAdd: entry i of the result is the modular operation on entries i, in [0,N); length preserved; an error (and no vector) exactly on length mismatch. ScalarProduct/VectorInnerProduct equal the inner product mod N and agree with one another on equal-length input; powerOf gives x^i mod N for i>=1 and 1 for i=0; VectorExp is the multi-scalar product.", "quantifier": "all vectors, all integers, all moduli N>0", "why_tests_cant": "All lengths and values.", "anchors": ["bulletproofs/vector.go", "bulletproofs/util.go: powerOf, VectorExp, ScalarProduct"]}
{"id": "C13", "title": "IsPowerOfTwo on int64", "statement": "IsPowerOfTwo(x) is true exactly for the 63 positive powers of two 2^0..2^62 and for the most negative int64; the latter is a deviation from the documented behaviour.", "quantifier": "all int64 values", "why_tests_cant": "2^64 inputs.", "anchors": ["bulletproofs/util.go: IsPowerOfTwo"]}
{"id": "C14", "title": "bulletproofs.Setup accepts exactly six range ends", "statement": "For every int64 b other than the most negative one, on a group with hash-to-group, Setup returns parameters exactly for b in {2,4,16,256,65536,2^32}, with N = 1,2,4,8,16,32 respectively and N generators in each of Gg and Hh; every other b is an error; no b>0 panics. The error 'range end can not be greater than 2**32' is unreachable.", "quantifier": "all int64 b", "why_tests_cant": "2^64 inputs; unreachable branch.", "anchors": ["bulletproofs/bp.go: Setup", "bulletproofs/util.go: IsPowerOfTwo"]}
{"id": "C15", "title": "Generators are derived from pairwise distinct seeds and reproducibly", "statement": "The seeds hashed for H, the Gg[i], the Hh[i] and Uu are pairwise distinct for every number of generators; Setup is a function of (b, group) only, and setupInnerProduct(nil,nil,N) re-derives exactly the generators of Setup.", "quantifier": "all N, all index pairs", "why_tests_cant": "Distinctness is over unboundedly many index pairs (decimal concatenation could collide).", "anchors": ["bulletproofs/bp.go: Setup", "bulletproofs/bip.go: setupInnerProduct", "bulletproofs/bulletproofs.go: SEEDH"]}
{"id": "C16", "title": "Inner-product argument completeness", "statement": "For every k, all integer vectors a,b of length 2^k, all generators, if proveInnerProduct on P=g^a h^b and c=<a,b> mod N returns a proof (no panic), then Verify of it returns true; the proof has exactly k L's and k R's.", "quantifier": "all k, all vectors, all generators, all hash functions, every lawful prime-order group", "why_tests_cant": "Unbounded sizes and all hash outcomes.", "anchors": ["bulletproofs/bip.go: proveInnerProduct, computeBipRecursive, InnerProductProof.Verify, commitInnerProduct"]}
{"id": "C17", "title": "Inner-product verification equals the closed-form multi-exponentiation check", "statement": "For 2^k generators, k L/R pairs and invertible round challenges x_1..x_k, Verify returns true iff  P + x.c.u + sum(x_j^2 L_j + x_j^-2 R_j) = sum_i (a.s_i g_i + b.s_i^-1 h_i) + x.a.b.u with s_i = prod_j x_j^{+-1} by the bits of i. Extra entries of R are ignored; fewer R than L panics.", "quantifier": "all k, all proofs, all challenges", "why_tests_cant": "Equivalence of two algorithms on all inputs.", "anchors": ["bulletproofs/bip.go: InnerProductProof.Verify"]}
{"id": "C18", "title": "Range-proof completeness", "statement": "For every parameter set of size n, every secret 0<=v<2^n and all prover randomness, if Prove returns a proof then Verify of it is true and the returned gamma opens V: V = v.G + gamma.H. Prove panics only if a challenge is 0 modulo the group order.", "quantifier": "all n=2^k, all v in range, all randomness, all hash functions, every lawful prime-order group", "why_tests_cant": "All randomness and all hash outputs.", "anchors": ["bulletproofs/bp.go: Prove, BulletProof.Verify"]}
{"id": "C19", "title": "The library prover cannot prove an out-of-range value", "statement": "For every integer secret v, the proof built by Prove verifies iff N divides z^2.(v - (v mod 2^n)); so for z nonzero mod N it verifies iff v is congruent mod N to an integer in [0,2^n).", "quantifier": "all integers v (negative, huge), all randomness, all hash functions", "why_tests_cant": "Unbounded v and all challenge values; the test suite tries three values.", "anchors": ["bulletproofs/bp.go: Prove, BulletProof.Verify", "util/util.go: Decompose"]}
{"id": "C20", "title": "Range-proof verification equals the equations of the paper", "statement": "Verify returns true iff (65) Tprime.G+Taux.H = z^2.V+delta(y,z).G+x.T1+x^2.T2, (67) Mu.H + P = A + x.S - z.<1,g> + <z.y^n+z^2.2^n, h'>, and the embedded inner-product proof verifies, with delta(y,z)=(z-z^2).<1,y^n>-z^3.<1,2^n>.", "quantifier": "all proofs with well-sized parameters and challenge y invertible", "why_tests_cant": "Equivalence on all inputs.", "anchors": ["bulletproofs/bp.go: BulletProof.Verify, delta, updateGenerators"]}
{"id": "C21", "title": "An accepted range proof says nothing about the committed value (shift attack)", "statement": "A user expects an accepted proof to bound the committed value. It does not: for every proof and every integer d, replacing V by V+d.G and Tprime by Tprime+z^2.d (z is public) does not change Verify's verdict. Hence for every integer v (and any opening randomness) there is an accepted proof whose V commits to v.", "quantifier": "all proofs, all integers d, all v", "why_tests_cant": "A universal statement about all accepted proofs; the attack needs no knowledge of the secret.", "anchors": ["bulletproofs/bp.go: BulletProof.Verify (Tprime is never compared with InnerProductProof.Cc)"]}
{"id": "C22", "title": "The two Fiat-Shamir challenges y and z are always equal", "statement": "HashBP is documented to return two challenges; for all inputs both results are the same number, because the second digest hashes the first buffer.", "quantifier": "all element pairs, all hash functions", "why_tests_cant": "Needs all inputs; a test comparing to vectors was commented out.", "anchors": ["bulletproofs/util.go: HashBP"]}
{"id": "C23", "title": "Because y=z, range proofs can be forged even with the missing consistency checks in place", "statement": "For every n>=2 and every integer v there is a prover strategy, following Prove except that it commits to aL=0 and aR=-1 with aR[1]=-1-v, whose proof (with Cc=Tprime and the inner-product parameters exactly those the verifier would derive) is accepted, with V=v.G+gamma.H.", "quantifier": "all n>=2, all integers v, all randomness, all hash functions", "why_tests_cant": "Existence of accepted forgeries for every value.", "anchors": ["bulletproofs/util.go: HashBP", "bulletproofs/bp.go: Prove, BulletProof.Verify"]}
{"id": "C24", "title": "Aggregated proofs: exact acceptance condition of honest MultiProve output", "statement": "A user expects MultiProve output to verify. For every list of m secrets and all randomness for which MultiProve returns (it panics unless m > 0 divides N), with bits = N/m: the inner-product check (68) holds; condition (65) holds iff sum_j z^{j+2} (v_j - v_j mod 2^bits) . G = 0 (in particular for in-range secrets); condition (67) holds iff sum_i g_i = sum_{j,i} (2^i + z^{j+2} - 2^i z^{j+2}) . h'_{j,i}, a relation between the generators that no choice of secrets or blinding values repairs; Verify accepts iff (65) and (67) hold. So honest aggregated proofs are rejected unless the generators satisfy that relation.", "quantifier": "all secrets, all m dividing n, all randomness, all hash functions", "why_tests_cant": "The condition is over all randomness; a concrete rejected run is exhibited.", "anchors": ["bulletproofs/multibp.go: MultiProve, MultiBulletProof.Verify, deltaMul"]}
{"id": "C25", "title": "Pedersen commitments: homomorphic, perfectly hiding, binding up to a discrete-log relation", "statement": "PedersenCommit(x1,r1)+PedersenCommit(x2,r2)=PedersenCommit(x1+x2,r1+r2); if H generates, every commitment can be opened to every value by exactly one r in [0,N); two openings of one commitment with x1 != x2 mod N yield the discrete log of G to base H (and of H to base G when r's differ).", "quantifier": "all integers, all lawful groups", "why_tests_cant": "Statements over all openings.", "anchors": ["util/util.go: PedersenCommit", "voteproof/voteproof.go: pedersenCommit"]}
{"id": "C26", "title": "Which malformed inner-product proofs crash the verifier", "statement": "InnerProductProof.Verify panics on: a missing scalar Cc, A or B; fewer R's than L's; fewer Hh than Gg; more rounds than log2(#generators); a generator count not a power of two while halving. With 2^k generators on both sides, k' <= k rounds, scalars present, at least as many R's and invertible challenges it returns a verdict without panicking.", "quantifier": "all proof objects", "why_tests_cant": "All malformed shapes.", "anchors": ["bulletproofs/bip.go: InnerProductProof.Verify", "bulletproofs/marshal.go"]}
{"id": "C27", "title": "voteproof.Setup parameter arithmetic", "statement": "Setup succeeds exactly when lenSecret+lenChallenge+2 <= groupOrderLog; then Bx+Bc does not wrap in 16 bits, Bx+Bc+Bb = Bg-1, the lower bound 2^(Bx+Bc) is at most half of the upper bound 2^(Bg-1), and the range bounds and groups are stored unchanged.", "quantifier": "all uint8/uint16 parameter values", "why_tests_cant": "2^56 parameter combinations.", "anchors": ["voteproof/voteproof.go: Setup, Verify"]}
{"id": "C28", "title": "The vote-proof challenge is in range", "statement": "getFSChallenge returns an integer 0<=c<2^Bc for all inputs with Bc<=263 (indeed < 256^(Bc/8)), and panics exactly when Bc>=264.", "quantifier": "all transcripts, all Bc, all 32-byte hash functions", "why_tests_cant": "All hash outputs and all Bc.", "anchors": ["voteproof/voteproof.go: getFSChallenge"]}
{"id": "C29", "title": "Vote-proof completeness", "statement": "For parameters produced by Setup with 2^(Bg-1) <= GFF.N and any integer secret, any rp, rq1, rq2: whenever Prove returns a proof, Verify accepts it against Y=rp.G, Xp=secret.G+rp.H, Xqi=secret.G+rqi.H.", "quantifier": "all secrets, all randomness tapes, all hash functions, any two lawful groups", "why_tests_cant": "All randomness/hash outputs; includes the k mod GFF.N slip in Prove.", "anchors": ["voteproof/voteproof.go: Prove, SigmaProof.Verify"]}
{"id": "C30", "title": "The abort loop returns the first in-range attempt and never releases an out-of-range response", "statement": "Prove returns the transcript of the first random attempt whose z lies in [2^(Bx+Bc), 2^(Bx+Bc+Bb)) and discards every earlier attempt; so a returned z is always in that interval; it spins forever exactly when every attempt on the tape is out of range.", "quantifier": "all randomness tapes (any number of aborts)", "why_tests_cant": "Unbounded loop with probability-dependent exit.", "anchors": ["voteproof/voteproof.go: Prove"]}
{"id": "C31", "title": "Released z is independent of the secret", "statement": "For every secret and challenge with 0 <= c.secret <= 2^(Bx+Bc): for each z in the released interval there is exactly one mask k in the sampling range producing it, so the number of masks leading to acceptance and the distribution of z do not depend on the secret. This fails as soon as c.secret exceeds the lower bound.", "quantifier": "all secrets, challenges, z", "why_tests_cant": "A counting statement over 2^255 masks.", "anchors": ["voteproof/voteproof.go: Prove"]}
{"id": "C32", "title": "Vote-proof verification equals its specification", "statement": "Verify returns true iff z is in [2^(Bx+Bc),2^(Bx+Bc+Bb)), the challenge equals the hash of (W,Kp,Kq1,Kq2), Sp.G = c.Y+W, z.G+Sp.H = c.Xp+Kp, z.G+Sq1.H = c.Xq1+Kq1, z.G+Sq2.H = c.Xq2+Kq2.", "quantifier": "all proofs, all commitments", "why_tests_cant": "Equivalence on all inputs.", "anchors": ["voteproof/voteproof.go: SigmaProof.Verify, sigmaPedersenCheck"]}
{"id": "C33", "title": "Special soundness of the vote proof in each group", "statement": "Two accepted proofs with the same first-move commitments and parameters but different challenges yield explicit openings: Y = s.G, Xp = x.G+s.H with x=(z-z')/(c-c') mod N_FF, and Xq1, Xq2 are commitments to (z-z')/(c-c') mod N_EC.", "quantifier": "all pairs of accepted transcripts", "why_tests_cant": "All pairs.", "anchors": ["voteproof/voteproof.go: SigmaProof.Verify"]}
{"id": "C34", "title": "Cross-group equality: the ciphertext encrypts the integer in the range-proof commitment", "statement": "Given two accepted transcripts as above with challenges below 2^Bc under Setup's parameters (Bg the bit length of the curve order), if Xq1 opens to an integer 0<=x<2^Bx, then either a non-trivial discrete-log relation between G and H on the curve is explicit, or z-z'=(c-c').x over the integers and the ciphertext is an encryption of that same x: Y=s.G, Xp=x.G+s.H.", "quantifier": "all transcripts, all x, all parameters accepted by Setup", "why_tests_cant": "This is the integer no-wrap-around argument of the protocol; it depends on every parameter combination.", "anchors": ["voteproof/voteproof.go: Setup, Verify"]}
{"id": "C35", "title": "Perfect honest-verifier zero knowledge of the vote proof", "statement": "For a fixed statement and challenge, the map from prover randomness (k with released z, tp, tq1, tq2) to transcripts is a bijection onto the transcripts passing Verify's interval and group checks with responses reduced mod the group orders; and for every response tuple a simulator computes the matching first move without the witness.", "quantifier": "all statements, challenges and randomness", "why_tests_cant": "Distribution equality over the whole randomness space.", "anchors": ["voteproof/voteproof.go: Prove, SigmaProof.Verify"]}
{"id": "C36", "title": "Accepted ballots are malleable", "statement": "A user expects that nobody can alter an accepted ballot. For every accepted ballot and every integer d with z+c.d in the released interval, the ballot obtained by publicly adding d.G to the ciphertext's second component, +d.G / -d.G to the lower / upper range commitments with the matching Tprime updates, and c.d to z, is accepted as well, and it decrypts to the old plaintext plus d.", "quantifier": "all accepted ballots, all integers d with z+c.d in range", "why_tests_cant": "Universal over all accepted ballots; no secret is used.", "anchors": ["server.go: verifyVote", "voteproof/voteproof.go: getFSChallenge (statement not hashed)", "bulletproofs/bp.go: BulletProof.Verify"]}
{"id": "C37", "title": "The verifier trusts proof-supplied sigma parameters", "statement": "verifyVote checks the sigma proof under the parameters inside the ballot, not the election parameters. Consequently for every ciphertext pair (U,V) whatsoever and any accepted pair of bulletproofs there is a sigma proof (with challenge length 0 in its embedded parameters) that makes verifyVote accept.", "quantifier": "all ciphertexts, all accepted range proofs", "why_tests_cant": "For-all-exists over ciphertexts.", "anchors": ["server.go: verifyVote", "voteproof/marshal.go: ProofUnmarshalJSON", "voteproof/voteproof.go: SigmaProof.Verify"]}
{"id": "C38", "title": "The hashed vote-proof transcript is ambiguous exactly at the W/Kp boundary", "statement": "Two different first moves can hash to the same challenge under every hash function: only the concatenation of the decimal strings of W and Kp enters. On P-256/P-384 that is the only ambiguity: equal hashed strings force equal Kq1, equal Kq2 and equal concatenated decimal strings of W and Kp. The statement (Y,Xp,Xq1,Xq2) is not hashed at all, so a statement can be chosen after the challenge.", "quantifier": "all first moves, all hash functions", "why_tests_cant": "Injectivity/ambiguity of an encoding over all inputs.", "anchors": ["voteproof/voteproof.go: getFSChallenge", "group/modsafeprime.go: String", "group/p256.go: String"]}
{"id": "C39", "title": "ElGamal encryption decrypts, determines the vote and is homomorphic", "statement": "For every choice and all randomness, decrypting encryptVote's ciphertext with the secret key gives choice.G; if two choices give the same ciphertext under randomness of their own they are equal (group order > 65535); U is never the identity; componentwise sums of ciphertexts decrypt to the sum of choices.", "quantifier": "all uint16 choices, all randomness, all keys, any lawful group with order > 65535", "why_tests_cant": "All choices and randomness.", "anchors": ["elgamal.go: encryptVote"]}
{"id": "C40", "title": "castVote only casts valid candidates, but never the last one", "statement": "For candidateMin < candidateMax the cast choice is in [candidateMin, candidateMax-1], each value reachable, without 16-bit wrap; candidateMax itself is never cast; with candidateMin = candidateMax castVote panics.", "quantifier": "all uint16 bounds, all randomness", "why_tests_cant": "All bounds and random values.", "anchors": ["voter.go: castVote"]}
{"id": "C41", "title": "Honest ballots are accepted", "statement": "For all parameters produced like setup's and all randomness, if castVote returns a ballot then verifyVote accepts it.", "quantifier": "all candidate ranges of width < 2^16, all randomness, all hash functions, any lawful groups", "why_tests_cant": "All randomness and hash outputs.", "anchors": ["voter.go: castVote", "server.go: verifyVote"]}
{"id": "C42", "title": "Voter code run on an invalid candidate number is rejected", "statement": "Running the ballot construction of castVote on any uint16 choice outside [candidateMin,candidateMax] (16-bit subtraction wraps) gives a ballot that verifyVote rejects unless the sigma challenge is 0 modulo the curve order; inside the interval it accepts.", "quantifier": "all uint16 choices and bounds, all randomness", "why_tests_cant": "All choices times all randomness; wrap-around makes both range proofs valid, so only the sigma check rejects.", "anchors": ["voter.go: castVote", "server.go: verifyVote"]}
{"id": "C43", "title": "End-to-end ballot soundness fails", "statement": "A user expects: verifyVote accepts only encryptions of candidate numbers in range. For every integer v (e.g. outside the range) there is, for the election's own parameters, an accepted ballot whose ciphertext is an encryption of v.", "quantifier": "all integers v >= 0 (bounded only by the release interval), all hash functions", "why_tests_cant": "For-all-exists; shows the guarantee cannot be relied on.", "anchors": ["server.go: verifyVote", "bulletproofs/util.go: HashBP", "bulletproofs/bp.go: Verify"]}
{"id": "C44", "title": "A ballot survives JSON transport", "statement": "For P-256 and P-384 and every ballot with valid group elements, encoding succeeds and BallotDataUnmarshalJSON of the JSON (same public parameters) returns the same ballot (only the group handles and the range-proof parameters are replaced by the server's own); every ballot castVote returns is transported to an identical ballot and accepted. With secp256k1 or ristretto255 every point of every decoded range proof is the fresh element.", "quantifier": "all ballots", "why_tests_cant": "All ballots; nested documents with leading zero coordinates.", "anchors": ["marshal.go: BallotDataUnmarshalJSON", "bulletproofs/marshal.go", "voteproof/marshal.go"]}
{"id": "C45", "title": "Ballot decoding: malformed documents are errors, malformed points are not", "statement": "BallotDataUnmarshalJSON returns a ballot only for an object in which each of the four parts is present and is an object or null; any other document is an error although the first json error is overwritten. Every P-256/P-384 point it returns is on the curve; but an undecodable curve point inside is silently replaced by the fresh element, a null point makes decoding panic, a document with four null parts decodes and makes verifyVote panic, and a proof with a missing scalar never gets a verdict (panic). Of repeated members naming the same part (exactly or up to ASCII case) only the last is looked at; members with other names are ignored.", "quantifier": "all JSON documents", "why_tests_cant": "All documents.", "anchors": ["marshal.go: BallotDataUnmarshalJSON", "bulletproofs/marshal.go: BulletProofUnmarshalJSON"]}
{"id": "C46", "title": "The benchmark driver crashes instead of reporting a rejected range proof", "statement": "verifyVote returns timing data iff both range proofs verify; main indexes the timings unconditionally, so it reports 'false' only for sigma failures and panics on any range-proof failure.", "quantifier": "all ballots, all iteration counts", "why_tests_cant": "All verdict histories of the loop.", "anchors": ["main.go: main", "server.go: verifyVote"]}
{"id": "C47", "title": "setup succeeds for all four curves with consistent parameters", "statement": "For every curve with a total MapToGroup, setup succeeds exactly when the curve order has at least 242 bits; for secp256k1, ristretto255, P-256 and P-384 it returns parameters with N=16, Bx=16, Bc=224, RangeLo=101, RangeHi=2000, Bg = bit length of the curve order, abort parameters 15, 12, 15, 143, and 2^(Bg-1) below both group orders; a range of width 1899 fits in 16 bits; GEC.F holds the ElGamal field size rather than the curve's. These parameters satisfy the hypotheses of the ballot theorems, so every ballot castVote completes in the deployed system is accepted (given a correct curve library).", "quantifier": "the four concrete curves and the concrete 3072-bit group", "why_tests_cant": "Concrete 3072-bit arithmetic that completeness and soundness rest on; no test checks it.", "anchors": ["main.go: setup", "group/*.go constants"]}
{"id": "C48", "title": "Group orders are primes; the 3072-bit modulus is a safe prime", "statement": "The constants returned by N() for secp256k1, ristretto255, P-256 and P-384 are prime, and so are the field orders; the 3072-bit constant parses to p=2q+1 with p and q prime, and 2 has order exactly q.", "quantifier": "the concrete constants", "why_tests_cant": "Primality of 256-, 384- and 3072-bit numbers is not testable by example.", "anchors": ["group/p256.go: P256", "group/p384.go: P384", "group/p256k1.go: SecP256k1", "group/ristretto255.go: Ristretto255", "main.go: setup"]}
{"id": "C49", "title": "Prover and verifier derive the same challenges and verification has no hidden state", "statement": "Verify recomputes x,y,z from (T1,T2) and (A,S) exactly as Prove did; the verdict is a function of the proof object only (V does not influence any challenge), and verification leaves every element of the proof object unchanged even though it mutates accumulators in place.", "quantifier": "all proofs", "why_tests_cant": "Frame property over all heaps.", "anchors": ["bulletproofs/bp.go: Prove, BulletProof.Verify", "bulletproofs/bip.go: InnerProductProof.Verify"]}
{"id": "C50", "title": "Knowledge soundness of the inner-product argument", "statement": "One round: from openings of the folded commitment for four challenges with pairwise distinct squares, an explicit formula gives either an opening of the round's P to its inner product or a non-trivial relation between the generators. Whole argument: from two trees of transcripts accepted by InnerProductProof.Verify (same P and Cc, different first challenges, four challenges at each round) an explicit computable extractor returns vectors a,b with P=<a,g>+<b,h> and Cc=<a,b>, or a non-trivial relation between Gg, Hh and Uu.", "quantifier": "all round sizes and depths, all trees of accepted transcripts", "why_tests_cant": "All transcripts.", "anchors": ["bulletproofs/bip.go: InnerProductProof.Verify"]}
{"id": "C51", "title": "The P-256 and P-384 wrappers are groups of the declared prime order", "statement": "On the elements accepted by the decoders of P-256 and P-384 (curve points and the identity) Add, Subtract, Negate, Scale, BaseScale, IsEqual, IsIdentity of the wrapper types obey all group and scalar laws as equalities of values, for all integer scalars including negative and oversized ones; results stay on the curve. There are exactly N such elements, N being the declared GroupOrder (prime), and every element is BaseScale(k) for exactly one 0<=k<N. The order declared for secp256k1 is the number of its points.", "quantifier": "all points, all integer scalars", "why_tests_cant": "About 2^256 points; associativity over all triples; point counting.", "anchors": ["group/p256.go", "group/p384.go", "group/p256k1.go: SecP256k1"]}
{"id": "C52", "title": "The deployed system on P-256 and P-384 without assumptions on the group", "statement": "With the parameters main.setup builds for P-256 or P-384: every ballot castVote completes survives JSON transport unchanged and is accepted by verifyVote; a ballot built by the honest code for any other uint16 number is rejected unless the Fiat-Shamir challenge is 0; Pedersen commitments are perfectly hiding exactly when H is not the identity, and a double opening yields the discrete logarithm between G and H.", "quantifier": "all candidate choices, all randomness, all hash functions", "why_tests_cant": "All randomness and all digest functions.", "anchors": ["main.go: setup", "voter.go: castVote", "server.go: verifyVote", "group/p256.go", "group/p384.go", "util/util.go: PedersenCommit"]}
{"id": "C53", "title": "Range proofs reveal nothing about the value", "statement": "For every BulletProof pf whose second challenge x = H(T1,T2) is not 0 modulo the group order, and any two secrets v, v' in [0, 2^N), exactly as many random draws make Prove(v) return pf as make Prove(v') return pf; in particular a proof returned for v is also returned for v' under other randomness. Holds whenever the group order is prime, elements have one representation and H generates; on P-256 and P-384 it suffices that H is not the identity.", "quantifier": "all proofs, all pairs of secrets in the range, all hash functions, all power-of-two bit lengths", "why_tests_cant": "Compares the counts of randomness tapes over a space of order N^(2n+5).", "anchors": ["bulletproofs/bp.go: Prove", "util/util.go: PedersenCommit"]}
{"id": "C54", "title": "Casting terminates without panic and the driver reports success", "statement": "With the parameters setup builds for a listed curve and a hash with 32-byte digests: castVote panics only if a challenge of its range proofs is a multiple of the curve order, and otherwise it returns a ballot as soon as one of the drawn masks k satisfies 2^240 <= k < 2^(bits-1)-2^240; exactly 2^241 of the 2^(bits-1) masks lie outside. The loop of main for the group panics only in that case, never reports malformed votes, and prints 'Votes were correctly formed: true' when every cast has such a mask. A group whose order has fewer than 242 bits is skipped with 'inconsistent parameter choice'. For P-256 and P-384 no assumption on the group is needed. Whatever the parameters are, the loop ends with a report exactly when every vote is cast, every range proof holds and no vote-proof check panics, and the report is the conjunction of the vote-proof verdicts; it panics exactly when, after votes that were all judged, one fails to be cast with a panic, has a range proof that does not hold, or has a vote proof whose check panics.", "quantifier": "all random tapes, any number of iterations, all such hash functions", "why_tests_cant": "The abort loop is unbounded and the failing masks/digests are too rare to hit.", "anchors": ["main.go: main, setup", "voter.go: castVote", "server.go: verifyVote", "voteproof/voteproof.go: Prove"]}
{"id": "C55", "title": "secp256k1: two forms of the identity, one group; the deployed system on it", "statement": "On the values p256k1Point operations produce - (nil,nil), (0,0), or reduced coordinates with y^2 = x^3+7 - Add, Negate, Subtract, Scale, BaseScale, IsEqual and IsIdentity obey the laws of a cyclic group of the declared prime order, with IsEqual as equality and whichever form of the identity the library returns; IsIdentity never panics on them; every value equals BaseScale(k) for exactly one k in [0,N). If the generator seeds hash to points whose x fills 32 bytes, setup succeeds, every ballot castVote completes is accepted, a ballot built by the honest code for any other uint16 is rejected unless the challenge is 0, and main's loop panics only if a challenge of a range proof is a multiple of N and reports success otherwise. If one of these seeds hashes to coordinates that together take fewer than 32 bytes, setup panics. Pedersen commitments hide perfectly exactly when H is not the identity, and a double opening reveals the logarithm between G and H.", "quantifier": "all legal points, scalars, choices, random tapes, hash functions; both forms of the library's identity", "why_tests_cant": "the test suite leaves secp256k1 out of its group tests (group_test.go:36); a law over 2^256 points and integers, the order, and two representations of the identity are beyond sampling", "anchors": ["group/p256k1.go: Add, Negate, Scale, BaseScale, IsEqual, IsIdentity, MapToGroup, SecP256k1", "main.go: main, setup", "voter.go: castVote", "server.go: verifyVote"]}
{"id": "C56", "title": "Aggregated proofs: what the verifier accepts, and that acceptance says nothing", "statement": "For every aggregated proof object with m >= 1 commitments (m need not divide N, bits = N/m rounded down), legal elements, all scalars present and a non-zero first challenge, MultiBulletProof.Verify returns true iff (65) Tprime.G+Taux.H = sum_j z^(j+2).V_j + ((z-z^2).sum_i y^i - sum_j z^(j+3).sum_{i<bits} 2^i).G + x.T1 + x^2.T2, (67) Mu.H + P = A + x.S - z.sum g + sum_i z.y^i.h'_i + sum_j sum_{i<bits} (2^i + z^(j+2)).h'_(j.bits+i) (the paper has 2^i times z^(j+2)), and the embedded inner-product proof verifies. No commitments, N = 0 or a missing scalar is a panic. Replacing V_j by V_j+d.G and Tprime by Tprime+z^(j+2).d changes none of the three printed checks; and for every non-empty list of integers and opening randomness there is an accepted proof committing to them.", "quantifier": "all proof objects, all hash functions, all integers d, all lists of integers", "why_tests_cant": "an equivalence over all group elements and scalars, and the existence of accepted proofs for every list of integers, cannot be sampled", "anchors": ["bulletproofs/multibp.go:227-327", "bulletproofs/multibp.go:330-367", "bulletproofs/bip.go:215-266"]}
{"id": "C57", "title": "Randomness: rand.Int is uniform, and casting a vote from a byte stream is casting with in-range numbers", "statement": "rand.Int(rand.Reader,max) panics iff max <= 0; otherwise it reads blocks of ceil(bl/8) bytes (bl = bit length of max-1), reduces each modulo 2^bl and returns the first number below max. For every length L and every condition on the unread rest, each value in [0,max) is returned on the same number of L-byte strings. Every completed or panicking run of castVote on a byte stream is such a run with numbers in the ranges the code draws from, and every such run with numbers occurs on some byte string. In the deployed system castVote panics on a byte stream only if a challenge of its range proofs is a multiple of the curve order, every ballot it completes is accepted by verifyVote and encrypts a candidate in 101..1999, and, if no digest is a multiple of the order, each of these candidates (but never 2000) is cast on some byte string. Random() of the safe-prime group and of secp256k1 returns each group element on the same number of byte strings.", "quantifier": "all byte streams, all bounds, all lengths, all public parameters with positive orders", "why_tests_cant": "uniformity is a count over all byte strings; absence of panics and acceptance range over all random streams", "anchors": ["voter.go:19-45", "elgamal.go:14-28", "bulletproofs/bp.go:106-140", "bulletproofs/bp.go:337-343", "voteproof/voteproof.go:126-177", "group/modsafeprime.go:63-68", "group/p256k1.go:51-56"]}
{"id": "C58", "title": "Proving, casting and serving share group elements but change none", "statement": "With group elements as pointers and the code's in-place accumulators (Element.Add/Scale into a receiver, slices of shared generators): bulletproofs.Prove, voteproof.Prove, castVote, verifyVote and the loop of main return exactly what the corresponding functions of the element values return (same error, same panic, same verdict, same proof contents) and leave every element that existed before the call unchanged. A returned range proof owns V, A, S, T1, T2, the inner product P, U, L, R and all updated generators but the first; its generators and the first updated generator are the very elements of the parameters. Hence for any interleaving of cast and verify requests over ballots that share parameters and generators, the ballots and verdicts are those of the requests on values; with the parameters setup builds no request panics and every cast ballot is accepted each time it is verified, whatever happened in between.", "quantifier": "all heaps and all aliasing between elements, all parameters, all randomness, all sequences of requests", "why_tests_cant": "aliasing bugs show only for particular sharing patterns and call orders; the statement covers every heap layout and every history", "anchors": ["bulletproofs/bp.go:104-243", "bulletproofs/bip.go:60-213", "bulletproofs/util.go", "voteproof/voteproof.go:99-226", "voter.go:19-45", "server.go:9-56", "elgamal.go:14-28", "main.go:142-152"]}
{"id": "C59", "title": "Ristretto255: four points per element, one group of the declared order; the deployed system on it", "statement": "On points of -x^2+y^2 = 1+d x^2y^2 with reduced coordinates the addition never divides by zero and stays on the curve; IsEqual holds between exactly four points, (x,y), (-x,-y), (iy,ix), (-iy,-ix). On the doubles of points of the curve Add, Negate, Subtract, Scale, BaseScale, IsEqual and IsIdentity obey the laws of a cyclic group of the declared prime order with IsEqual as equality, and every one equals BaseScale(k) for exactly one k in [0,N). For a point of the curve Scale(e,N-1)+e is the identity exactly when the point is such a double, and not all are. Pedersen commitments hide perfectly exactly when H is not the identity; a double opening reveals the logarithm between G and H. If the generator seeds hash to doubles, setup succeeds, every ballot castVote completes is accepted, a ballot built by the honest code for any other uint16 is rejected unless the challenge is 0, and main's loop never panics and reports success.", "quantifier": "all points of the curve, scalars, choices, random tapes, hash functions", "why_tests_cant": "completeness, associativity, the number of points and the four-to-one equality are laws over 2^255 points; sampling cannot show that no exceptional denominator exists", "anchors": ["group/ristretto255.go: Add, Negate, Scale, BaseScale, IsEqual, IsIdentity, MapToGroup, Ristretto255", "main.go: main, setup", "voter.go: castVote", "server.go: verifyVote"]}
{"id": "C60", "title": "Hashing to P-256 and P-384 with the hash functions in use", "statement": "SHA-256 digests have 32 bytes, SHA-384 digests 48. The map from field elements to the curve is the simplified SWU map of RFC 9380: the abscissa is x1 if that belongs to a point, else Z u^2 x1, which then does; the ordinate has the parity of u; this determines the point, also for the exceptional u. Hence MapToGroup on P-256 and P-384 returns a point of the curve for every string. setup uses exactly the 33 hashed generators H, Gg, Hh that the recorded runs in testdata contain, the prover the recorded U; the base point and these are 35 pairwise different points, none the identity. So, with no assumption on hash functions: commitments of the deployed system hide perfectly, every ballot castVote completes is serialised, parsed back identically and accepted, and a ballot built by the honest code for a number outside [101,2000] is rejected unless the challenge is 0.", "quantifier": "all strings, all field elements, all ballots and random tapes", "why_tests_cant": "a map that misses the curve for a few exceptional field elements would never be sampled; distinct generators of unknown relation matter for every commitment ever made", "anchors": ["group/p256.go:133-138", "group/p384.go:133-138", "bulletproofs/bp.go:74-97", "bulletproofs/bip.go:61-89", "testdata/P256rp.json", "testdata/P384rp.json", "main.go: setup"]}
{"id": "C61", "title": "Ballots as text: JSON is read as the grammar says, and survives re-formatting but not damage", "statement": "The scanner accepts exactly the texts of the JSON grammar (RFC 8259) nested at most 10000 deep, and reads each as the one document it stands for; no text stands for two documents. A printed document of integers, strings, arrays and objects is read back unchanged. BallotDataUnmarshalJSON depends only on the document: re-indenting the text or escaping characters changes nothing. Text that is not JSON is refused with an error and without panic; so is a marshalled ballot cut off at any place, or with anything but white space appended. On P-256 and P-384 every ballot castVote completes is marshalled to a text which, in every such re-writing, is decoded to the identical ballot and accepted.", "quantifier": "all texts, all documents, all ballots and random tapes, all ways of writing the same document", "why_tests_cant": "texts are unbounded; a test compares one formatting of one ballot, and cannot show that no prefix or variant is read as something else", "anchors": ["marshal.go: BallotDataUnmarshalJSON", "main_test.go: json.Marshal of a ballot", "main.go: main"]}
{"id": "C62", "title": "What a range proof proves: knowledge of an opening and of a weakened range relation, no more and no less", "statement": "From accepted range proofs for one commitment V and one first move A, S - N+2 different non-zero first challenges, for each three different second challenges, for each of those two trees of the inner-product argument - whose inner-product parameters are the ones Prove uses, an explicit procedure computes either a non-trivial relation between the generators, or an opening of V to some v and vectors aL, aR opened by A with, for every j, aL[j]*aR[j] + (aL[j-1] - aR[j-1] - 1) + [j=2](<aL,2^n> - v) = 0 (terms outside the range are 0). Any prover who knows such v, aL, aR convinces Verify under every digest function and all randomness; and vectors with which Prove is accepted for more than N+1 first challenges satisfy it. The bits of a number in [0,2^N) satisfy it. For N = 1 it forces v in {0,1}; for N >= 2 every v has such vectors. So because HashBP returns one challenge twice, range proofs of two or more bits bind the prover to an opening, but not to the range.", "quantifier": "all groups of prime order that obey the group laws, all N = 2^k, all transcripts, digest functions and random numbers, all field elements v", "why_tests_cant": "soundness is about all provers; tests only run the honest one, and even a test with a wrong value would be rejected by the honest prover's arithmetic", "anchors": ["bulletproofs/bp.go: Prove, Verify", "bulletproofs/util.go: HashBP", "bulletproofs/bip.go: Verify"]}
{"id": "C63", "title": "Binary points of P-256 and P-384: exactly the SEC 1 formats, two per point, garbage becomes the identity in SetBytes", "statement": "UnmarshalBinary succeeds with the point e exactly on the SEC 1 encodings of e: the byte 0 for the identity, 4 with both reduced coordinates of a curve point, or 2/3 with a reduced abscissa for the curve point of even/odd ordinate. On any other bytes it returns an error and leaves the receiver alone. No bytes stand for two points. MarshalBinary writes the uncompressed format; a point other than the identity has exactly one further encoding, the compressed one, so that bytes are not a canonical form of received points. SetBytes never fails: it yields the encoded point, or silently the identity if the bytes encode none; the result is always a point of the group.", "quantifier": "both curves, all byte sequences of any length, all receivers, all points", "why_tests_cant": "2^257 sequences of the right length alone; a test decodes what it encoded and never meets compressed, unreduced or off-curve input", "anchors": ["group/p256.go: UnmarshalBinary, MarshalBinary, SetBytes", "group/p384.go: UnmarshalBinary, MarshalBinary, SetBytes"]}
{"id": "C64", "title": "Elements as objects: any mixture of calls on the five implementations behaves like calls on values", "statement": "A program that creates elements of any of the five groups and calls Add, Subtract, Negate, Scale, BaseScale, Set, SetBytes, MapToGroup, UnmarshalBinary, UnmarshalJSON, IsEqual, IsIdentity and MarshalBinary on them, in any order and with any element as receiver and operand at once, returns and panics exactly as if elements were plain values. A call changes no element but its receiver; in particular decoding into a copy made with Set does not reach the original. Add, Subtract, Negate, Scale and Set compute from the values the operands had before the call and return the receiver. An operand of another implementation, or of a safe-prime group with another modulus or generator, makes all methods that take operands panic. MapToGroup overwrites and returns its receiver on P-256, P-384 and Ristretto255, but returns a new element and leaves the receiver alone on secp256k1; on safe-prime groups it panics.", "quantifier": "all programs of any length over any number of elements, all sharing patterns, all inputs, all behaviours of hashing and of Ristretto decoding", "why_tests_cant": "the sharing patterns of receivers, operands and inner pointers are unbounded; tests use fresh receivers of one group", "anchors": ["group/p256.go", "group/p384.go", "group/ristretto255.go", "group/p256k1.go", "group/modsafeprime.go"]}
{"id": "C65", "title": "Ristretto255 bytes are canonical and complete, hashing lands in the group; the deployed system needs no assumption on it", "statement": "MarshalBinary of a Ristretto255 element writes 32 bytes: the even, reduced number s whose square is (1-y)/(1+y) for the one representative of the class with x and xy even and y not zero. Two points have equal bytes exactly when IsEqual holds, so String() and the transcript hash see elements, not representations. UnmarshalBinary accepts a byte sequence only if it is the encoding of an element, and yields it; encoding and decoding give back an equal element; exactly N byte sequences are accepted. MapToGroup yields an element of the group from any derived bytes. So setup succeeds, honest ballots are accepted, the range of choices is exact and the driver reports success on this group without assumption on the hash. MarshalJSON panics exactly on the elements whose encoding does not begin with a zero byte, the generator among them.", "quantifier": "all points of the group, all byte sequences of any length, all derivations of bytes from strings, all randomness", "why_tests_cant": "2^256 byte sequences; uniqueness and evenness are statements about all field elements and all curve points; vectors check a few dozen", "anchors": ["group/ristretto255.go: MarshalBinary, UnmarshalBinary, String, MapToGroup, MarshalJSON", "main.go: setup, castVote"]}
{"id": "C66", "title": "Hashing to secp256k1 takes the first point of a counted search; the deployed system needs no assumption on it", "statement": "MapToGroup on secp256k1 tries i = 0..255 in turn: the SHA-256 digest of the decimal numeral of i followed by the string, read as a signed big-endian number and reduced modulo p, and takes the first that is the abscissa of a point, with the ordinate (x^3+7)^((p+1)/4). It finds none exactly if none of the 256 numbers is such an abscissa, and then it panics. If the abscissa found fills 32 bytes the point returned is that point. On each of the 34 seeds that setup and the range prover hash, it returns a point whose abscissa fills 32 bytes; these points and the base point are pairwise different. So on secp256k1, with the hash functions the program uses and no further assumption on the group, setup succeeds, every completed ballot is accepted, the range of accepted choices is exact, and the driver reports success.", "quantifier": "all strings and all digest functions for the search; all randomness and all choices for the system", "why_tests_cant": "the search is over unbounded strings; that no seed of the setup hits the trimmed-bytes panic is used by all proofs about the group and follows from no test of single points", "anchors": ["group/p256k1.go: MapToGroup", "bulletproofs/bp.go: setup", "bulletproofs/bip.go: setupInnerProduct", "main.go: setup"]}
{"id": "C67", "title": "The program prints, for its four groups in order, that all votes were correctly formed", "statement": "main runs secp256k1, ristretto255, P-256 and P-384 in this order with 1000 votes each. With the hash functions it uses and draws in the ranges the code draws from, if no challenge of a range proof is a multiple of the group order: it does not panic; at any time what it has printed is the beginning of a text in which every section ends with 'Votes were correctly formed: true' and only the durations and the number of lines 'Aborted' after the header vary; and if every vote draws a mask k with 2^240 <= k < 2^(bits-1)-2^240 it prints that text to its end and exits. A vote prints no more lines 'Aborted' than it draws masks before the first such k, and, in a completed section, at least as many as it draws masks up to 2^240-2^235 in a row at its beginning. A group whose order has fewer than 242 bits costs one line 'Skipping execution for NAME due to inconsistent parameter choice' and changes nothing in the sections of the other groups. After a panic nothing but the header of the group and lines 'Aborted' has been added.", "quantifier": "all random values of all 4000 votes, all durations, all lists of groups for skipping", "why_tests_cant": "a run of the program samples one of more than 2^(10^6) sequences of draws", "anchors": ["main.go: main, setup, castVote, verifyVote", "voteproof/voteproof.go:133-157"]}
{"id": "C68", "title": "The repository's own tests, decided for every random draw", "statement": "For whatever group elements are drawn: TestGroup passes all its subtests on the 3072-bit group, P-256 and P-384, and on Ristretto255 the subtests Neg, Order, Set and MarshalBinary; its MarshalJSON subtest never passes there: it panics unless the encoding of every drawn element begins with a zero byte, and otherwise reports a failure. So TestGroup never passes. UnmarshalJSON of a Ristretto255 element accepts no document at all: it panics or returns an error, and the receiver keeps its value. TestMath (secp256k1) passes. The five range tests on Ristretto255 (0 and 3 accepted; -1, 2^32 and 2^32+1 rejected) and TestJsonEncodeDecode (P-256) pass for every draw for which no challenge of the proof is a multiple of the group order; the same range test with any other integer x accepts exactly if the group order divides x - (x mod 2^32). TestInnerProduct never fails, and panics only if a digest of its own run is not invertible. TestXYWithinRange passes exactly if it does not panic and the 64 generators satisfy one linear relation that depends on the challenge. Its prover panics only if a digest of that run is not invertible. The tests of powers, scalar products, vectors and powers of two pass.", "quantifier": "all elements and scalars the tests draw, all hash functions", "why_tests_cant": "each run of a test samples ten elements or one proof; that no draw makes it fail, or that every draw makes it fail, is about all of them", "anchors": ["group/group_test.go: TestGroup, TestMath", "bulletproofs/bp_test.go", "bulletproofs/bip_test.go: TestInnerProduct", "bulletproofs/multibp_test.go: TestXYWithinRange", "bulletproofs/util_test.go", "bulletproofs/vector_test.go", "group/ristretto255.go: MarshalJSON, UnmarshalJSON"]}
{"id": "C69", "title": "The ballots recorded in testdata, end to end with SHA-256", "statement": "For P-256 and P-384 with circl's hash to the curve: with the public parameters of setup, BallotDataUnmarshalJSON reads every text of the document recorded in testdata (P256rp.json, P384rp.json) without error or panic and returns the recorded values, skipping the unknown key Commit of the upper range proof. Both range proofs of the ballot verify. verifyVote of the ballot does not panic for any verifier parameters over the curve, returns two times, and its verdict is true exactly if RangeLo is 101 and RangeHi is 1000. So unmarshalAndVerify reports a failure under setup's parameters, whose range ends at 2000, while under the parameters stored inside the ballot the verdict is true.", "quantifier": "all texts of the two documents, all 65536 x 65536 ranges and all other fields of the verifier's parameters, all NaN payloads in setup", "why_tests_cant": "the test that reads the files does not compile, and would try one range; the statement covers all verifier parameters and every JSON text of the documents, and checks the model, real SHA-256 and curve arithmetic included, against output of the real program", "anchors": ["testdata/P256rp.json", "testdata/P384rp.json", "main_test.go: unmarshalAndVerify, TestTestData", "marshal.go: BallotDataUnmarshalJSON", "server.go: verifyVote", "bulletproofs/bp.go: Verify", "bulletproofs/bip.go: Verify", "voteproof/voteproof.go: Verify"]}
{"id": "C70", "title": "Arrays of unequal length in a ballot", "statement": "BallotDataUnmarshalJSON accepts range proofs whose Hh is longer than Gg, or whose R is longer than L, and leaves nil elements in the surplus places. Whether it panics, fails or succeeds does not depend on the surplus, and the rest of the ballot is the same. verifyVote then panics if the surplus is in Hh of a range proof that has at least one round and is reached; in every other case its result is the result without the surplus, so nothing is accepted because of it. In particular, take any ballot that castVote completes in the deployed system on P-256 or P-384 and append any one JSON value to Hh of either range proof: the document is decoded without an error and the server panics; appended to R, the verdict does not change.", "quantifier": "all documents, codecs, verifier parameters and hash functions; all appended JSON values; all honest ballots of the deployed system", "why_tests_cant": "the surplus entry can be any JSON value in any ballot; that nothing but a panic can come of it is a statement about all documents", "anchors": ["bulletproofs/marshal.go: ipParamsFromRawMessage, ipProofFromRawMessage, BulletProofUnmarshalJSON", "marshal.go: BallotDataUnmarshalJSON", "bulletproofs/bip.go: Verify, hashIP, vectorScalarExp", "server.go: verifyVote"]}
{"id": "C71", "title": "Repeated keys inside a proof", "statement": "Two objects under the key InnerProductProof of a range proof, under Params inside it, or under Params of a vote proof (key spelling up to case) are decoded as one object with the members of both; the second does not replace the first, and null under such a key changes nothing. A scalar Taux, Mu or Tprime given once more replaces the value if it is a number and removes it if it is null; the rest of the proof is unaffected. One occurrence of the wrong type makes the call return an error, wherever it stands and whatever the other occurrences are. An unsigned parameter of the vote proof (Bx, Bc, Bg, RangeLo, RangeHi) that is anything but null or an unsigned integer literal of its size - also the literal -0 - makes the call fail. The signed parameter Bb given once more in a further Params object at the end keeps its value if the new one is null, becomes 0 for the literal -0 and n for a 64-bit integer literal n, the rest of the proof being unaffected; any other value makes the call fail.", "quantifier": "all member lists before, between and after the occurrences, all spellings of the keys, all codecs and parameters", "why_tests_cant": "marshalled proofs never repeat a key, so no round trip reaches this; the statement is about all documents", "anchors": ["bulletproofs/marshal.go: innerProductParamsJSON, innerProductProofJSON, bulletProofJSON, BulletProofUnmarshalJSON", "voteproof/marshal.go: ProofUnmarshalJSON"]}
{"id": "C72", "title": "What an accepted ballot proves: knowledge of one number behind ciphertext and both range-proof commitments", "statement": "Take two ballots that verifyVote accepts (under any two digest functions) which share ciphertext, range-proof commitments and the first move of the vote proof, differ in the challenge, and carry the election's vote-proof parameters. For any openings v1, v2 of the two range-proof commitments, an explicit scalar computation either yields a non-trivial relation a.G + b.H = 0 on the curve, or v1 + RangeLo = RangeHi - v2 = (z-z')/(c-c') modulo the curve order and the ciphertext is an encryption of (z-z')/(c-c'). If v1, v2 are in [0, 2^n), then lo <= m <= hi for m = lo + v1 as integers, z-z' = (c-c').m over the integers, and decryption with the secret key gives m.G. The openings are computed from trees of accepted range proofs (C62). For the parameters setup returns: unless a relation between the generators is found, the ballot decrypts to x.G with (c-c').x = z-z', and v1, v2 < 65536 implies that it decrypts to a candidate in [101, 2000]. So the only gap between acceptance and a valid vote is the range proof itself (C43, C62), plus the unchecked parameters (C37).", "quantifier": "all digest functions with 32-byte output, all pairs of accepted ballots, all openings or trees of accepted range proofs, all group implementations obeying the group laws, all parameters accepted by Setup", "why_tests_cant": "soundness quantifies over all provers and all pairs of transcripts", "anchors": ["server.go: verifyVote", "voteproof/voteproof.go: Verify, Setup", "bulletproofs/bp.go: Verify", "main.go: setup"]}
{"id": "C73", "title": "The vote proof does not tie the ciphertext to the range proofs", "statement": "A user expects that an accepted vote proof shows that ciphertext and range-proof commitments contain one number. For every number x of the candidate range, any range proofs that bulletproofs.Prove returns for x-lo and hi-x, and any difference d, a voter who uses mask k in the curve part and k-d in the ElGamal part of the first move, and only then (the challenge c does not depend on the statement) encrypts x+d/c, gets a ballot that verifyVote accepts; for 2^(Bc+Bx) <= d <= q-2^(Bc+Bx) it decrypts to no number below 2^Bx. So ballot soundness fails even if the range proofs were sound. Holds for the parameters of setup on all four curves.", "quantifier": "all x in the range, all prover randomness, all hash functions with non-zero challenge, all legal elections", "why_tests_cant": "An attack for every input of the verifier's surroundings; tests only run the honest voter.", "anchors": ["voteproof/voteproof.go: getFSChallenge (statement not hashed), SigmaProof.Verify", "server.go: verifyVote"]}
{"id": "C74", "title": "A ballot reveals nothing about the vote beyond its ciphertext", "statement": "A simulator that knows the ciphertext and the Fiat-Shamir challenge of a ballot, but neither the vote nor the encryption randomness, calls bulletproofs.Prove twice with the value 0 and fills in the first move of the vote proof from random responses. For every vote of the candidate range and every ballot carrying an encryption of it, the number of random draws on which castVote returns exactly this ballot (in the attempt that is released) equals the number of draws on which the simulator returns it; both numbers are finite. Hence the two range proofs and the vote proof add nothing to what the ciphertext tells, with the parameters of setup on P-256 and P-384.", "quantifier": "for every vote between RangeLo and RangeHi, every encryption randomness, every ballot with that ciphertext whose range-proof challenges are not zero modulo the order, every 32-byte hash function, every lawful pair of groups with unique representations and H a generator; instantiated for P-256 and P-384", "why_tests_cant": "Secrecy is about the distribution of the ballots over all random draws; a test sees single ballots and cannot notice that some ballot is more likely under one vote than under another.", "anchors": ["voter.go:19-45 castVote", "voteproof/voteproof.go:126-182 Prove", "bulletproofs/bp.go: Prove", "server.go:25-40"]}
{"id": "C75", "title": "Ballots as bytes", "statement": "BallotDataUnmarshalJSON gets bytes. Every byte string is read as the one text in which encoded characters stand for themselves and a byte at which no UTF-8 character begins stands for U+FFFD; this never makes up or hides a quotation mark, bracket, digit or white space, and what stands before and after such a byte is read independently. So two byte strings with the same characters are decoded alike, a byte string whose text is no JSON text is refused with an error, and the bytes of a marshalled ballot are decoded to the same ballot, which is accepted; cut off anywhere, even within a character, or followed by anything but white space, they are refused.", "quantifier": "for all byte strings, all texts, all ballots completed by castVote on P-256 and P-384 with SHA-256, all proper prefixes", "why_tests_cant": "Tests feed two well-formed ASCII files; invalid UTF-8, overlong forms, encoded surrogate halves and cut characters form an infinite family.", "anchors": ["marshal.go:39-71 BallotDataUnmarshalJSON", "main_test.go:22-36 unmarshalAndVerify"]}
{"id": "C76", "title": "The files under testdata, as they stand", "statement": "The bytes of testdata/P256rp.json and testdata/P384rp.json are decoded by BallotDataUnmarshalJSON with the parameters of setup without an error or a panic; both range proofs of the decoded ballot verify; verifyVote returns false for it under the parameters of setup, and for any parameters over the same curve it returns true exactly if they have the candidate range 101 to 1000.", "quantifier": "both files line by line (761 lines each); all verifier parameters over the curve; real SHA-256 and hash to the curve", "why_tests_cant": "The tests run the files against one set of parameters only; the verdict for every set of parameters needs the verification equations.", "anchors": ["testdata/P256rp.json", "testdata/P384rp.json", "main_test.go:22-57", "marshal.go:39-71 BallotDataUnmarshalJSON", "server.go: verifyVote"]}
{"id": "C77", "title": "The election key is a constant, so a ballot names its candidate to everybody", "statement": "setup uses the private key 13 whatever the curve and the random source. With P the 3072-bit modulus, a ballot (U, V) returned by castVote satisfies 2^m * U^13 = V modulo P for exactly one m below 65536, and m is the candidate that was chosen; no two numbers (U, V), U no multiple of P, have two such m. The ballots of testdata/P256rp.json and testdata/P384rp.json open to 883 and 975. The secrecy of the vote against a reader of the source does not hold.", "quantifier": "all curves of the program, all hash functions, all random draws, all choices, all pairs of numbers", "why_tests_cant": "No test decrypts; that the opening is unique among 65536 plaintexts for every randomness needs the order of 2 modulo the prime.", "anchors": ["main.go:70-71 elGamalPrivateKey", "main.go:83 fieldGroupParams.H", "elgamal.go:14-28 encryptVote", "voter.go:19-45 castVote", "testdata/P256rp.json", "testdata/P384rp.json"]}
{"id": "C78", "title": "The challenges of a range proof do not depend on the commitment, so repairing the other faults leaves a forgery", "statement": "HashBP makes the challenges of a range proof from A, S and from T1, T2; V is never hashed. Take Verify with the faults of C21-C23 removed: challenges y, z, x that are arbitrary functions of (A,S) and (T1,T2), the inner-product claim compared with Tprime, and the inner-product generators compared with the verifier's own. It accepts every honest proof, and it refuses whoever follows Prove with a number outside [0,2^N). Still, a prover who follows Prove for any v in the range, adds any group element D to T1 and names V last, as v.G + gamma.H - (x/z^2).D, is accepted for all challenge functions with z invertible. With D = d.G the commitment opens to v - d.x/z^2, which need not be in the range; with D of unknown discrete logarithm, an opening of V would be a relation between D, G and H. With the program's own challenge function the same proofs are accepted by Verify. Holds for the parameters that setup makes on all four curves.", "quantifier": "all groups that obey the group laws, all N = 2^k, all challenge functions, hash functions, random numbers, elements D and values v in the range", "why_tests_cant": "An attack for every challenge function; the repository's tests only run the honest prover.", "anchors": ["bulletproofs/util.go: HashBP", "bulletproofs/bp.go: Prove, BulletProof.Verify"]}
{"id": "C79", "title": "What the challenges of range proofs and inner-product proofs depend on", "statement": "HashBP hashes the strings of two elements one after the other, hashIP those of the commitment, of the generators in turn and of the claimed product, without separators or lengths. On P-256 and P-384, two first moves get the same challenges under every hash function only if they are the same elements in the same order, and two inner-product statements only if commitment, number of generators, generators and claim agree. On Ristretto255 the same holds up to IsEqual for equally many generators; the number of generators is not determined: there are two elements with encodings made of ASCII digits, so that a statement with one pair of generators and the claim 0 and a statement with no generators and a 65-digit claim get the same challenge under every hash function. In the safe-prime group, (1,64) and (16,4) get the same HashBP challenges.", "quantifier": "all first moves and inner-product statements over valid elements, all numbers of generators, all claims, all hash functions", "why_tests_cant": "Injectivity of an encoding over all inputs and all hash functions.", "anchors": ["bulletproofs/util.go: HashBP", "bulletproofs/bip.go: hashIP", "group/p256.go: String", "group/ristretto255.go: String", "group/modsafeprime.go: String"]}
{"id": "C80", "title": "With the known repairs the interactive range proof proves the range", "statement": "Take Verify with the faults of C21-C23 removed as in C78: separate challenges y and z, the inner-product claim compared with Tprime, the inner-product generators compared with the verifier's own. From accepted transcripts for one commitment V and one first move (A,S), with N different y, three different z for each, three different x for each of those, and the trees of C50 for the inner-product argument, all non-zero, an explicit extractor computes either a non-trivial relation between the generators G, H, U, g, h, or an opening of V to a number in [0,2^N) whose bits are committed in A (aR = aL - 1). How challenges are derived does not matter, so together with C78 the remaining requirement is that V is fixed before the challenges. With the program's own challenges no such tree exists, because z = y. Holds for the parameters that setup makes on all four curves (16 bits, 35 generators).", "quantifier": "all groups of prime order that obey the group laws, all N = 2^k, all trees of accepted proofs, all challenge functions and hash functions", "why_tests_cant": "A statement about all provers; needs an extractor and a proof.", "anchors": ["bulletproofs/bp.go: BulletProof.Verify, delta", "bulletproofs/util.go: HashBP", "bulletproofs/bip.go: InnerProductProof.Verify"]}
{"id": "C81", "title": "With repaired range proofs an accepted ballot is a vote for a candidate", "statement": "Replace the range-proof verifier in verifyVote by the repaired one of C80 and leave everything else. From two accepted vote proofs with one first move and different challenges (carrying the election's parameters), and the trees of C80 for the two range-proof commitments, an explicit computation yields a non-trivial relation between the generators of the range proofs, or a number m with RangeLo <= m <= RangeHi such that the lower commitment opens to m - RangeLo, the upper one to RangeHi - m, z-z' = (c-c').m over the integers, and every secret key belonging to the public key decrypts the ciphertext to m.G. For the parameters setup returns, on each curve: the ballot decrypts to a candidate number from 101 to 2000, or there is a relation between the 35 generators. The program's own checks do not give this (C43: accepted ballots for any number).", "quantifier": "all digest functions with 32-byte output, all pairs of accepted vote proofs, all trees of accepted range proofs, all group implementations obeying the group laws, all parameters accepted by Setup", "why_tests_cant": "Soundness of the whole ballot quantifies over all provers; no set of ballots shows it.", "anchors": ["server.go: verifyVote", "voteproof/voteproof.go: Verify, Setup", "bulletproofs/bp.go: BulletProof.Verify", "main.go: setup"]}
{"id": "C82", "title": "setup allocates what it shares, and the whole program on shared memory prints what the values determine", "statement": "With group elements as pointers into a memory that may already hold anything: setup panics or returns an error exactly when the function of the element values does; otherwise the contents of the parameters are those values, no element that existed before is changed, every element of the parameters is newly allocated, the generators of the curve (Generator(), G, H, Gg, Hh) are pairwise different cells, the public key EGPK is the very element FFGroupParams.H, ECGroupParams.H is the very element BPParams.H, and the parameters of the correctness proof refer to the same elements. A process that calls setup with one of the program's curves and then serves any sequence of cast and verify requests does not panic, and every ballot cast is accepted each time it is verified (unless a challenge of a range proof is a zero divisor). main, over any list of groups, prints the same lines and ends in the same way as the program on values.", "quantifier": "all initial memories, all group implementations, all lists of groups, all randomness, all sequences of requests", "why_tests_cant": "Sharing between the records of the public parameters is invisible until something writes through it; a test sees one memory layout and one history.", "anchors": ["main.go:30-112", "main.go:114-174", "bulletproofs/bp.go:74-97", "voteproof/voteproof.go:79-97"]}
{"id": "C83", "title": "Which ballots crash the server", "statement": "For SHA-256 (or any digest function with 32-byte output) and any ballot value, verifyVote panics exactly in these cases: the lower range proof cannot be processed; or it is accepted and the upper one cannot be processed; or both are accepted and the vote proof crashes. A range proof can be processed exactly when none of Taux, Mu, Tprime and the Cc, a, b of its inner-product part is nil, the parameters have N >= 1, N entries in Gg and at least N in Hh, the generators of the inner-product part can be halved once per round (and there is an R for every L), and the challenges of (A,S) and of every round have inverses; for a ballot decoded under parameters of prime order only the six integers, the halving and challenges that are not divisible by the order remain. A vote proof crashes exactly when Z is nil, or Z is in its interval and Bc >= 264 or Challenge is nil, or the challenge is right and Sp is nil, or the next two equations hold and Sq1 is nil, or one more holds and Sq2 is nil. So the guarantee one expects - any decoded ballot gets a verdict - fails: in the document of any ballot that is accepted (in particular of every ballot castVote returns on P-256 and P-384), replacing any one of its 17 integers by null gives a document that is decoded without an error and makes verifyVote panic. And replacing Params.Bb by any larger integer below 2^63 gives a document that is decoded and accepted after the server has computed 2^(Bx+Bc+Bb), a number of up to 2^63 bits.", "quantifier": "all ballots, all digest functions with 32-byte output, all documents of accepted ballots, all 17 integers, all values of Bb below 2^63, all group implementations", "why_tests_cant": "An exact crash condition over all ballots is a statement about every combination of sizes, missing values and challenges; tests sample crashes but cannot show there are no others.", "anchors": ["server.go: verifyVote", "bulletproofs/bp.go: Verify", "bulletproofs/bip.go: Verify", "voteproof/voteproof.go:179-226", "voteproof/marshal.go: ProofUnmarshalJSON", "bulletproofs/marshal.go: BulletProofUnmarshalJSON", "marshal.go: BallotDataUnmarshalJSON"]}
{"id": "C84", "title": "Which documents crash the decoder of ballots", "statement": "BallotDataUnmarshalJSON on a JSON object panics exactly in these cases, parts being looked at in the order ballot, lbProof, ubProof, voteProof, each only if every part before it has well-typed messages: the ciphertext has a u or v on which the element decoder panics; a range proof is well typed and the decoder panics on V, A, S, T1, T2, InnerProductProof.P, InnerProductProof.Params.Uu, or on an entry of Gg or L, or on an entry of Hh or R at an index below the length of Gg or L, or Hh is shorter than Gg, or R shorter than L; the vote proof is well typed and the decoder panics on one of its eight elements. A document that is not an object gives an error, never a panic. The element decoders of P-256, P-384 and Ristretto255 panic exactly on null, on an object with a coordinate missing or null, and on coordinates other than (0,0) of which x has more than len+1 bytes or y more than 2*len+1 bytes; those of secp256k1 and of the ElGamal group never panic. So the guarantee one expects - decoding reports an error or succeeds - fails: in the document of any ballot that decodes (in particular of every ballot castVote returns on P-256 and P-384), null in place of any of the 18 curve points outside the arrays, null for any entry of Gg, Hh, L or R, or the last entry of Hh or R left out makes the decoder panic. Leaving the key of a point out altogether does not: the document decodes without an error to the same ballot with the identity (in the ElGamal group: the number 0) at that place, and null for an element of the ElGamal group does the same.", "quantifier": "all JSON documents, all element decoders, all ballots that decode, all their points and array entries; all ballots castVote returns on P-256 and P-384", "why_tests_cant": "The exact set of crashing documents ranges over every shape of JSON at some 60 places and over array lengths; tests can find crashing documents but not show that the list of causes is complete.", "anchors": ["marshal.go: BallotDataUnmarshalJSON", "marshal.go: BallotUnmarshalJSON", "bulletproofs/marshal.go: BulletProofUnmarshalJSON", "voteproof/marshal.go: ProofUnmarshalJSON", "group/p256.go:182-207", "group/p384.go:182-207", "group/ristretto255.go:182-207"]}
{"id": "C85", "title": "How often the vote prover starts over", "statement": "Let the mask k of every attempt of Prove be drawn below 2^(bits-1), bits the bit length of the order of the curve group. For every digest function with 32-byte digests, every candidate c in [101, 1999] castVote can draw, every value of all other draws (the blinding factors of each attempt included) and every n: the number of sequences of n masks on which castVote has discarded n attempts and draws again is at most (2^240 + c*2^224)^n, and at least (2^240 - c*2^224)^n unless casting panics on a challenge that is a zero divisor. Out of the 2^((bits-1)n) sequences that is a probability between 2^-(16n) and 2^-(14n) on secp256k1 and P-256, 2^-(13n) and 2^-(11n) on Ristretto255, and 2^-(144n) and 2^-(142n) on P-384 (setup, SHA-256 and hash to the curve as deployed). In particular the loop of Prove ends with probability 1, and the candidate changes the number of discarded sequences by a factor below 1.07 per attempt.", "quantifier": "all digest functions, all candidates, all draws other than the masks, all numbers of attempts, the four groups of the program", "why_tests_cant": "A probability of 2^-144 is never observed, one of 2^-14 not measured exactly; and the bound holds for every way the challenge depends on the mask, over 2^255 masks per attempt.", "anchors": ["voteproof/voteproof.go:126-177", "voteproof/voteproof.go: Prove", "voter.go: castVote"]}
{"id": "C86", "title": "How many group elements the program creates", "statement": "Count the group elements that the packages main, voteproof and bulletproofs create (calls of Element, Identity and Generator). From any state of memory and for every digest function: a successful setup creates 2 elements of the ElGamal group and 35 of the curve; castVote with its parameters, if it returns, creates 8 and 812, plus 4 and 6 for each time it prints \"Aborted\", whatever the candidate and whatever is drawn; verifyVote of a cast ballot, if it accepts, creates 8 and 415; main's section for one group that reports correctly formed votes creates 2 + 16*votes + 4*aborts and 35 + 1227*votes + 6*aborts. For an arbitrary ballot, verifyVote creates at most 8 elements of the ElGamal group and at most 59 plus, for each of the two range proofs, 5N + 3(|Gg|+|Hh|) + 2|L| of the curve, N, Gg, Hh, L being the fields the ballot itself carries: the work of the server is linear in the ballot, not bounded by the parameters.", "quantifier": "all digest functions, all states of memory, all candidates, all draws, all numbers of votes, all ballots", "why_tests_cant": "Neither that the count is independent of the choice, the draws and the digests, nor a bound for ballots of any shape and size, follows from measuring runs.", "anchors": ["main.go:30-112", "voter.go:19-45", "server.go:9-56", "bulletproofs/bp.go: Prove, Verify", "bulletproofs/bip.go: proveInnerProduct, Verify", "voteproof/voteproof.go: Prove, Verify"]}
{"id": "C87", "title": "Which byte strings crash a server that decodes and verifies them", "statement": "Take BallotDataUnmarshalJSON followed by verifyVote (unmarshalAndVerify), any digest function with 32-byte digests, and public parameters over a curve group of prime order with at least two bits. On a byte string it panics exactly when the bytes are the text of a JSON object and either decoding panics (the cases of C84), or everything decodes and one of these holds: a number of the lower range proof (Taux, Mu, Tprime, Cc, A, B) is missing or null, its Gg is empty or its length not a multiple of 2^(number of L), it has rounds and more Hh than Gg, or the group order divides its challenge of (A,S) or of a pair (L_i,R_i); the lower proof is accepted and one of these holds for the upper one; both are accepted and verifying the vote proof panics (a number missing when it is needed, or Bc of 264 or more). Everything unmarshalAndVerify accepts passes the corresponding check of the document alone - no bad points, no missing numbers, array lengths as above, Bc below 264 - and a document that passes this check makes it panic only if the group order divides a challenge of one of its range proofs. On P-256 and P-384 with SHA-256 and the parameters of setup, the bytes of every ballot castVote returns are accepted.", "quantifier": "all byte strings, all digest functions of 32 bytes, all public parameters over groups of prime order; all ballots castVote returns on P-256 and P-384", "why_tests_cant": "The set of byte strings is unbounded, and that a document check refuses nothing acceptable and leaves no panic but zero challenges quantifies over all of them; fuzzing finds crashes but cannot show the list complete.", "anchors": ["main_test.go:24-36", "marshal.go: BallotDataUnmarshalJSON", "server.go: verifyVote", "bulletproofs/marshal.go: BulletProofUnmarshalJSON", "bulletproofs/bp.go: Verify", "bulletproofs/bip.go: Verify", "voteproof/marshal.go: ProofUnmarshalJSON", "voteproof/voteproof.go: Verify"]}
{"id": "C88", "title": "Ballots sent to the server of another curve", "statement": "Setup, SHA-256 and hash to the curve as deployed. The bytes of every ballot castVote returns on P-384 make unmarshalAndVerify of a P-256 server panic, although the document is well formed and the other server accepts it (more generally, so does any ballot whose generator Params.GEC.G is written in a way the receiving decoder panics on). In the other direction nothing as bad happens: whatever a P-256 server accepts - in particular the bytes of every ballot castVote returns on P-256 - makes the P-384 server panic only if the order of P-384 divides a challenge of a range proof, and is accepted by it only if Kq1 and Kq2 are the identity for both servers, or the two different messages that the servers hash for the vote proof have digests that start with the same Bc/8 bytes, Bc as in the document. The last part holds for every digest function of 32 bytes and all parameters over the two curves with one ElGamal group.", "quantifier": "all ballots castVote returns on P-384; all byte strings accepted by a P-256 server; for the last part all digest functions and parameters", "why_tests_cant": "The repository only ever sends a ballot to the server it was made for; that every P-384 ballot crashes, and that no byte string is accepted by both servers without a collision, are statements about all ballots and all byte strings.", "anchors": ["main_test.go:24-36", "marshal.go: BallotDataUnmarshalJSON", "voteproof/marshal.go: ProofUnmarshalJSON", "voteproof/voteproof.go: getFSChallenge", "group/p256.go: UnmarshalJSON", "group/p384.go: UnmarshalJSON", "server.go: verifyVote"]}
{"id": "C89", "title": "Numbers in honest ballots are reduced, ballots have bounded size, and accepted ballots have variants", "statement": "Every ballot castVote returns, for every digest function of 32 bytes and all positive group orders, has reduced numbers only: in both range proofs Taux, Mu, Tprime, Cc, A, B are in [0, order of the curve), in the vote proof Sp is in [0, order of the ElGamal group), Sq1, Sq2 in [0, order of the curve), Z between zLowerBound and zUpperBound, Challenge in [0, 2^Bc). With setup, SHA-256 and the curves as deployed its bytes are at most 39195 on P-256 and 52420 on P-384. The server does not require this: verifyVote gives the same result on any ballot and on the ballot obtained by adding any multiples of the curve order to Taux, Mu, Tprime, A, B, Sq1, Sq2, so an accepted ballot can be rewritten without limit by anybody. Requiring reduced numbers would remove exactly this: of all ballots with the same elements and the same numbers up to multiples of the orders at most one is reduced (if zUpperBound - zLowerBound is at most the ElGamal order).", "quantifier": "all draws and choices of castVote; all digest functions and parameters for the range of the numbers and the variants; all ballots, accepted or not, and all multiples", "why_tests_cant": "Bounds on the numbers and on the length have to hold for all randomness, and the variants of a ballot are infinitely many; a test sees one ballot and one variant at a time.", "anchors": ["bulletproofs/bp.go: Prove", "bulletproofs/bp.go: Verify", "bulletproofs/bip.go: proveInnerProduct", "bulletproofs/bip.go: computeBipRecursive", "bulletproofs/bip.go: Verify", "bulletproofs/vector.go: VectorAdd", "voteproof/voteproof.go: Prove", "voteproof/voteproof.go: Verify", "server.go: verifyVote", "main_test.go:44"]}
{"id": "C90", "title": "Ballots on secp256k1 and Ristretto255 do not survive transport", "statement": "On secp256k1 and Ristretto255 UnmarshalJSON never stores what was sent: whenever it returns, the element is what it was before. A server with such a curve (prime order q, generator not the identity, RangeLo and RangeHi different modulo q) accepts only byte strings whose vote proof has a Challenge and a Z that q divides. For the deployed system on secp256k1 (SHA-256, ing-bank's hash to the curve): the bytes json.Marshal returns for any ballot of castVote, which verifyVote accepts before marshalling, make unmarshalAndVerify return the error \"failed to verify data\", or panic if the order divides the challenge of two fresh elements; they are never accepted. On Ristretto255 json.Marshal panics on every ballot castVote returns, so there is nothing to send.", "quantifier": "all byte strings that reach the server; all choices and draws of castVote; for the first part all digest functions, parameters and groups of the kind described", "why_tests_cant": "The tests marshal ballots on P-256 and P-384 only, and that no byte string at all with other numbers is accepted cannot be sampled.", "anchors": ["group/p256k1.go: MarshalJSON", "group/p256k1.go: UnmarshalJSON", "group/ristretto255.go: MarshalJSON", "group/ristretto255.go: UnmarshalJSON", "group/ristretto255.go: UnmarshalBinary", "marshal.go: BallotDataUnmarshalJSON", "voteproof/marshal.go: ProofUnmarshalJSON", "bulletproofs/marshal.go: BulletProofUnmarshalJSON", "server.go: verifyVote", "main_test.go: unmarshalAndVerify"]}
{"id": "C91", "title": "Anybody on the wire can read a ballot and replace its vote", "statement": "For the deployed system on P-256 and P-384 (SHA-256, circl's hash to the curve), take the bytes json.Marshal returns for any ballot of castVote. Exactly one number m below 65536 satisfies 2^m·U^13 = V modulo the RFC 3526 prime, and m is the voter's choice. For every v below 65536, somebody who has only these bytes and the public parameters can decode them, change the ciphertext, the two range proofs and Z by v-m, and encode again; if Z + Challenge·(v-m) stays in the release interval [2^240, 2^(bits-1)), unmarshalAndVerify returns nil for the new bytes, and they open to v and to no other number below 65536, also when v is no candidate. All v can be put in whenever 2^241 <= Z < 2^(bits-1) - 2^240.", "quantifier": "all choices, all draws and rejection loops of castVote, all replacement votes below 65536; for the general part all digest functions, all lawful groups and codecs", "why_tests_cant": "The tests only check that unchanged ballots are accepted; that every ballot admits an accepted replacement for every vote is a statement about all ballots and all votes.", "anchors": ["main.go: setup", "voter.go: castVote", "marshal.go: BallotDataUnmarshalJSON", "server.go: verifyVote", "main_test.go: unmarshalAndVerify", "voteproof/voteproof.go: Verify", "bulletproofs/bp.go: Verify"]}
{"id": "C92", "title": "Aggregated proofs: what Verify prints, which proofs crash it and when, and when MultiProve returns", "statement": "MultiBulletProof.Verify prints up to three lines and they show its three checks: if it returns, the lines are 'Check 65: b1', 'Check 67: b2', 'Check 68: b3' and the result is b1 && b2 && b3. It panics with nothing printed exactly if the proof has no value commitment, Tprime or Taux is nil, N is 0 or larger than the number of generators Hh, or (N at least 2) the challenge of A and S has no inverse. Otherwise it panics after one line exactly if Gg does not have N elements or Mu is nil, and otherwise after two lines exactly if its inner-product proof crashes InnerProductProof.Verify. MultiProve with generators for N = 2^k bits and invertible digests returns a proof exactly if the number of secrets is positive and divides N, and panics otherwise; the secrets do not matter. Under any digest function whatsoever, for such a number of secrets, it returns a proof if the challenges taken in the run are invertible. For its own proof of secrets in range, Verify prints three lines, the first and third are true, and the second decides the verdict.", "quantifier": "All groups, parameters, digest functions, decoded proofs (any field may be nil or of any length), secrets and random choices.", "why_tests_cant": "The crash conditions are an exact characterisation over all malformed proofs; the output before the panic depends on where in the function the panic happens, which no finite set of malformed proofs covers.", "anchors": ["bulletproofs/multibp.go: Verify", "bulletproofs/multibp.go: MultiProve", "bulletproofs/bip.go: Verify"]}
{"id": "C93", "title": "How many random bytes casting a vote reads", "statement": "A completed castVote is a function of the bytes it has read from crypto/rand.Reader: the same bytes followed by anything else give the same ballot. It has read at least one block for each number it draws: 2 bytes for the choice, 384 for the ElGamal randomness, 37 numbers of the curve's size for each of the two range proofs, and for every attempt at the vote proof one mask, one 384-byte number and two curve numbers. That is 3234 bytes on secp256k1, Ristretto255 and P-256 and 4466 on P-384 for one attempt, and 480 (528) more for each further attempt; on shorter strings castVote never returns. The bound is reached: unless some digest is a multiple of the group order, some string of exactly that length gives a ballot. rand.Int reads nothing but whole blocks, one per rejected value.", "quantifier": "All byte strings, numbers of attempts, digest functions, and the four groups of the program (SHA-256 and the groups' real hash functions).", "why_tests_cant": "Randomness consumption is not observable in the tests, which use the operating system's generator; the bound is over all byte strings of any length, including rejected blocks and discarded attempts.", "anchors": ["voter.go: castVote", "elgamal.go: encryptVote", "bulletproofs/bp.go: Prove", "bulletproofs/bp.go: sampleRandomVector", "voteproof/voteproof.go: Prove"]}
{"id": "C94", "title": "Aggregated proofs share elements with their parameters and change none", "statement": "Group elements are pointers whose methods overwrite their receiver, an aggregated proof keeps the parameters' generators by reference, and updateGenerators returns a slice whose first entry is the caller's own Hh[0]. Nevertheless MultiProve and MultiBulletProof.Verify change no element that existed before the call; MultiProve panics, fails or returns exactly as the function of the elements' values does, and the proof's own elements are all newly allocated; Verify has the three check results the values determine, for every proof whose elements exist, in whatever way they are shared. Hence for any sequence of Prove, MultiProve, BulletProof.Verify and MultiBulletProof.Verify calls with one set of parameters, in any order and with proofs verified any number of times, all proofs and all answers are those that the same calls give on immutable values.", "quantifier": "All groups, digest functions, parameters, memory contents and sharing patterns, randomness, secrets, and call sequences of any length.", "why_tests_cant": "Aliasing bugs show only for particular sharing patterns and call orders; the repository's test makes one proof and verifies it once.", "anchors": ["bulletproofs/multibp.go: MultiProve", "bulletproofs/multibp.go: MultiBulletProof.Verify", "bulletproofs/bp.go: updateGenerators", "bulletproofs/bp.go: commitVector", "bulletproofs/bip.go: computeBipRecursive"]}
{"id": "C95", "title": "Aggregated proofs become complete by editing two lines, not by editing one", "statement": "MultiProve commits to aRConcat twice (multibp.go:86) and Verify adds z^(2+j) to the powers of two instead of multiplying (multibp.go:300). With both lines as the protocol asks, every proof that MultiProve returns for secrets in range is accepted by Verify, for any generators, and a proof of secrets out of range is accepted exactly if their out-of-range parts cancel; MultiProve returns such a proof for every non-empty list whose length divides N, unless a digest taken in that very run has no inverse modulo the group order (shown for any digest function, and for the parameters of setup on all four curves with SHA-256); in particular TestXYWithinRange then passes for every draw. With the prover's line alone changed an honest proof is accepted exactly if the h generators satisfy a linear relation, and with the verifier's line alone changed exactly if the g generators sum to the identity. None of the edits makes aggregated proofs sound: adding d*G to a commitment and z^(j+2)*d to Tprime still changes no verdict.", "quantifier": "All four settings of the two lines, all lawful groups, generators, digest functions, randomness and lists of secrets; TestXYWithinRange on Ristretto255 for every draw.", "why_tests_cant": "The failing test shows that honest proofs are rejected but not which lines cause it, nor that changing both suffices for all inputs and changing either never does; that the repaired code stays unsound needs a proof about adversarial inputs.", "anchors": ["bulletproofs/multibp.go: MultiProve", "bulletproofs/multibp.go: MultiBulletProof.Verify", "bulletproofs/multibp_test.go: TestXYWithinRange"]}
{"id": "C96", "title": "Aggregated range proofs reveal nothing about the values", "statement": "Although MultiProve commits to the wrong vector on line 86, its proofs hide the values perfectly: in a group of prime order with one representation per element and H a generator, for any proof object whose challenge x is not zero modulo the order, the number of choices of all the random integers drawn by MultiProve for which it returns exactly that proof is the same for any two equally long lists of secrets in the range. So a proof that fits one list of values fits every other, and equally often. The same holds with line 86 as the protocol asks.", "quantifier": "All prime-order lawful groups with unique representations, generators, digest functions, proof objects and pairs of lists of in-range secrets; instantiated for P-256 and P-384.", "why_tests_cant": "A statement about the number of random tapes leading to each of astronomically many proofs; a test sees one tape at a time.", "anchors": ["bulletproofs/multibp.go: MultiProve", "bulletproofs/bp.go: commitVector", "bulletproofs/bip.go: proveInnerProduct"]}
{"id": "C97", "title": "MultiProve from the byte stream: what it draws and how many bytes it reads", "statement": "MultiProve for m secrets draws its numbers from crypto/rand.Reader in a fixed order (m blinding factors, alpha, sL, sR, rho, tau1, tau2). Everything it returns on some bytes, and every panic, is what it does for numbers in the ranges the code draws from; every choice of such numbers comes from a byte string of exactly (m+2N+4) blocks, and no completed run reads less or depends on anything after the bytes it has read. Without secrets it panics before reading anything. With the parameters of setup and SHA-256 (or any digest function) it returns proofs exactly for 1, 2, 4, 8 or 16 secrets, panics on those only if a digest taken in that very run has no inverse modulo the group order, and needs (m+36) numbers: 32(m+36) bytes on secp256k1, Ristretto255 and P-256, 48(m+36) on P-384; on fewer bytes it is still waiting.", "quantifier": "All byte strings, digest functions, parameters, lists of secrets; all four deployed curves.", "why_tests_cant": "A test runs on the operating system's bytes and cannot choose them, let alone all of them; the rejection loop of rand.Int makes the number of bytes unbounded.", "anchors": ["bulletproofs/multibp.go:51-222 MultiProve", "bulletproofs/bp.go: sampleRandomVector", "main.go: setup"]}
{"id": "C98", "title": "Range proofs reveal nothing about the values, counted in byte strings", "statement": "The lists of numbers Prove and MultiProve draw are uniform and independent on the byte stream: for every length L all lists of numbers in range come from equally many strings of L bytes, and no others occur. Consequently, for every proof object whose challenge x is not zero modulo the order and every L, the number of L-byte prefixes of the random stream on which Prove returns exactly this proof is the same for any two values of the range, and the same holds for MultiProve and any two equally long lists of values of the range; also if only the strings are counted that are read completely, so the amount of randomness consumed says nothing either. In particular for the parameters of setup on P-256 and P-384.", "quantifier": "All lengths, proof objects, digest functions, pairs of in-range values or lists of values; prime-order groups with one representation per element and H a generator, among them P-256 and P-384 as set up.", "why_tests_cant": "The claim compares the numbers of byte strings leading to each possible proof; a test sees single runs.", "anchors": ["bulletproofs/bp.go:104-243 Prove", "bulletproofs/multibp.go:51-222 MultiProve", "bulletproofs/bp.go: sampleRandomVector", "main.go: setup"]}
{"id": "C99", "title": "Range proofs reveal nothing about the values on any of the four curves, whatever a reader tests", "statement": "Take any test a reader may apply to a range proof, single or aggregated, that sees the commitments and A, S, T1, T2 only as far as the group lets them be told apart, and that passes only proofs whose challenge x is not zero modulo the order. For every length L, the number of L-byte prefixes of the random stream on which Prove (MultiProve) returns a proof that passes is the same for any two values (equally long lists of values) of the range. With the parameters of setup: on P-256 and P-384 for every test; on Ristretto255 for every test that sees those points through their encodings, provided circl does not hash the seed of H to the identity; on secp256k1 for every test that passes no proof with the identity among those points. The last restriction is real: an identity on secp256k1 is (nil, nil) or (0, 0) depending on how it came about, and the text of a commitment that is the identity tells 0 from 1.", "quantifier": "All tests (sets of proofs), lengths, digest functions, pairs of in-range values or lists of values; all four deployed curves and every lawful prime-order group with H a generator.", "why_tests_cant": "The claim compares, for every possible set of proofs, the numbers of byte strings leading into it; a test sees single runs.", "anchors": ["bulletproofs/bp.go:104-243 Prove", "bulletproofs/multibp.go:51-222 MultiProve", "bulletproofs/util.go: HashBP", "group/p256k1.go: IsIdentity", "group/ristretto255.go: String", "main.go: setup"]}
{"id": "C100", "title": "A ballot reveals nothing about the vote beyond its ciphertext on any of the four curves, whatever a reader tests", "statement": "Take any test a reader may apply to a ballot that sees the curve points of the two range proofs (outside their inner product arguments) and of the vote proof only as far as the group lets them be told apart, and that passes only ballots whose range-proof challenges x are not zero modulo the order. A simulator that is given the ciphertext, but neither the vote nor the encryption randomness, picks a challenge, calls bulletproofs.Prove twice with the value 0 and fills in the first move of the vote proof from random responses; its ballot counts if the hash of the first move is the challenge picked. For every vote of the candidate range, the draws on which castVote returns a ballot that passes (in the attempt that is released) and the simulator's draws that pass are finite and equally many. With the parameters of setup: on P-256 and P-384 for every test; on Ristretto255 for tests that see those points through their encodings, provided circl does not hash the seed of H to the identity; on secp256k1 for tests that pass no ballot with the identity among those points.", "quantifier": "All tests (sets of ballots), votes between RangeLo and RangeHi, encryption randomness, 32-byte digest functions; all four deployed curves and every lawful pair of groups with unique representations in the first and H a generator of the second.", "why_tests_cant": "The claim compares, for every possible set of ballots, the numbers of draws leading into it under the vote and under the simulator; a test sees single ballots.", "anchors": ["voter.go:19-45 castVote", "voteproof/voteproof.go:126-182 Prove", "bulletproofs/bp.go:104-243 Prove", "group/p256k1.go: IsIdentity", "group/ristretto255.go: String", "main.go: setup"]}
{"id": "C101", "title": "With all known repairs an aggregated proof proves the range of every value", "statement": "Take MultiProve and MultiBulletProof.Verify with both lines of C95 corrected and with the repairs of C80: separate challenges y and z, the inner-product claim compared with Tprime, the inner-product generators compared with the verifier's own. From accepted transcripts for m commitments and one first move (A,S), with N different y, m+2 different z for each, three different x for each of those, and the trees of C50 for the inner-product argument, all non-zero, an explicit extractor on the scalars computes either a non-trivial relation between the generators G, H, U, g, h, or openings of all m commitments to numbers in [0,2^(N/m)), N/m rounded down, whose bits are the blocks of the vector committed in A. m need not divide N; for m > N all values are 0. The repaired prover's proofs of values in range are accepted whatever the challenges, and are made if m divides N, unless a challenge of that very run has no inverse. With the program's own challenges prover and verifier are those of C95 with both edits, and no such tree exists, because z = y. Holds for the parameters of setup on all four curves (values below 2^(16/m), 35 generators).", "quantifier": "all groups of prime order that obey the group laws, all N = 2^k, all numbers m of values, all trees of accepted proofs, all challenge functions and hash functions", "why_tests_cant": "A statement about all provers; needs an extractor and a proof.", "anchors": ["bulletproofs/multibp.go: MultiProve", "bulletproofs/multibp.go: MultiBulletProof.Verify", "bulletproofs/util.go: HashBP", "bulletproofs/bip.go: InnerProductProof.Verify"]}
{"id": "C102", "title": "Accepted aggregated proofs prove that openings are known, and nothing about the values", "statement": "(a) Aggregated proofs for the same m commitments that pass the first condition of MultiBulletProof.Verify (condition 65), with m different non-zero challenges y and for each of them one pair T1, T2 and three different challenges x, give openings of all m commitments by an explicit calculation on y, x, Tprime and Taux. A, S and the inner-product proofs may be anything, and there is no exception (no relation between generators). The same for one commitment and BulletProof.Verify with three proofs. (b) For any m integers and any opening randomness, m <= N and N at least 4, there is an explicit prover that needs no vector of bits: every proof that it returns is accepted, whatever the random numbers and the digest function, and its inner-product proof is for Tprime, for the U of the seed and for the generators the verifier derives, so it also passes the comparisons that Verify leaves out. It returns a proof whenever the challenges taken in the run are invertible modulo the order. For the program's four curves, its hash-to-group functions and SHA-256 this covers m = 1 to 16, that is, every m for which a value has at least one bit.", "quantifier": "all prime-order groups that obey the group laws, all N = 2^k, all m, all accepted proofs (a); all integers, opening randomness, random numbers and digest functions (b)", "why_tests_cant": "(a) is about all provers; (b) is about all values. Tests have single values and the honest prover.", "anchors": ["bulletproofs/multibp.go: MultiBulletProof.Verify", "bulletproofs/multibp.go: MultiProve", "bulletproofs/bp.go: BulletProof.Verify", "bulletproofs/util.go: HashBP"]}
{"id": "C103", "title": "Vote proofs against provers of unlimited power: which votes are excluded, and what is not tied", "statement": "Fix the parameters, a statement (ciphertext and two range-proof commitments) and the first move W, Kp, Kq1, Kq2 of a vote proof. (a) Whether the move can be completed to a proof that SigmaProof.Verify accepts depends only on its hash value. (b) Unless the ciphertext decrypts to a fraction n/d modulo the order of the first group with |n| below the length of the interval for Z and 0 < d < 2^Bc, at most one challenge can be answered, by any means and whatever the range-proof commitments, i.e. at most 256^(32-Bc/8) of the 256^32 hash values. (c) Exactly: a hash value with challenge c can be answered iff c x + k is in the interval for Z modulo the order, x being the vote and k what (W, Kp) decrypts to; the range-proof commitments are irrelevant (H generating the curve group). (d) Conversely, for a fraction n/d with small n a suitable first move leaves all challenges that are multiples of d answerable; one half passes for every second challenge. (e) There are at most 2ab fractions. For the parameters of setup on all four curves: all votes but at most 2^(bits+224) of more than 2^3070 leave at most 2^32 of 2^256 hash values; and for a ciphertext of any number from 1 to 65535 and any two unrelated commitments there is a first move after which all 2^256 hash values can be answered.", "quantifier": "all first moves, statements, provers (no bound on computing power), hash values, prime orders, parameter sizes; all four deployed curves", "why_tests_cant": "The claim is about everything a prover could do after a given first move, and counts hash values out of 2^256.", "anchors": ["voteproof/voteproof.go: SigmaProof.Verify", "voteproof/voteproof.go: getFSChallenge", "voteproof/voteproof.go: sigmaPedersenCheck", "voteproof/voteproof.go: Prove"]}
{"id": "C104", "title": "How many group elements aggregated range proofs create", "statement": "Count the group elements that MultiProve and MultiBulletProof.Verify create (calls of Element, Identity and Generator in package bulletproofs). With N = 2^k bits and as many generators, for m values, from any state of memory, for any digests, values and random numbers: MultiProve, if it returns a proof, creates 23N + 8k + 3m; Verify of that proof, later and with any digest function, creates, if it returns, 13N + 2m + 2k + 18 with either verdict, and m divides N. Verify of an arbitrary proof creates at most 7N + 2|Vs| + 3(|Gg|+|Hh|) + 2|L| + 24, so work is linear in what the proof carries and its N. Prove for one value creates 23N + 8k + 3 and Verify of its proof 11N + 2k + 16; hence aggregating m >= 2 values costs fewer elements than m separate proofs with the same generators, on both sides.", "quantifier": "all groups, digest functions, memories, values, random numbers, numbers of values and powers of two N; all proofs for the bound", "why_tests_cant": "Tests measure some runs; the count holds for every run that ends, and the bound for every proof an attacker may send.", "anchors": ["bulletproofs/multibp.go: MultiProve", "bulletproofs/multibp.go: MultiBulletProof.Verify"]}
{"id": "C105", "title": "Anybody on the wire can cast a voter's vote again as a ballot of their own", "statement": "A user expects that nobody can cast a copy of somebody else's vote without knowing it, at least not in a form that looks new. For the deployed system on P-256 and P-384 (SHA-256, circl's hash to the curve), take the bytes json.Marshal returns for any ballot of castVote and any integers r, s1, s2. Somebody who has only these bytes and the public parameters can decode them, add r to the randomness of the ciphertext and s1, s2 to that of the two range commitments, correct Taux, Sp, Sq1, Sq2, and encode again: unmarshalAndVerify returns nil for the new bytes, and they open to the voter's choice and to no other number below 65536. For 0 < r < Q both numbers of the ciphertext differ from the voter's, so removing repeated ciphertexts does not help; all numbers are reduced, so requiring that does not help either. In general, for any lawful groups and any accepted ballot carrying the election's parameters, the copy is accepted and every key belonging to the public key decrypts it to the same plaintext. Only the first moves of the proofs, the challenge and Z stay as they were.", "quantifier": "all accepted ballots, all r, s1, s2, all digest functions and lawful groups; deployed form for every ballot of castVote on P-256 and P-384", "why_tests_cant": "Tests verify ballots that castVote made; no test changes a ballot consistently, and acceptance of the copy is an algebraic identity over all randomness.", "anchors": ["server.go: verifyVote", "voteproof/voteproof.go: getFSChallenge (statement not hashed)", "bulletproofs/bp.go: BulletProof.Verify", "main.go: setup", "voter.go: castVote", "marshal.go: BallotDataUnmarshalJSON", "main_test.go: unmarshalAndVerify", "voteproof/voteproof.go: Verify", "bulletproofs/bp.go: Verify"]}
{"id": "C106", "title": "Exactly which ballots share the hashed parts of an accepted ballot", "statement": "All challenges are hashes of first moves only, so keep every hashed element of an accepted ballot (W, Kp, Kq1, Kq2 and A, S, T1, T2 and the inner-product proofs of both range proofs) and replace ciphertext, range commitments and the responses Z, Sp, Sq1, Sq2, Tprime, Taux. With the parameters of setup on all four curves and challenge c other than 0, verifyVote accepts the new ballot if and only if the new Z is in [2^240, 2^(bits-1)), the ciphertext is the old one moved by (dSp/c).(G, PK) and (dZ/c).G in the second part, the lower and upper commitments are the old ones moved by +-(dZ/c).G and (dSq/c).H, and z^2 times these moves are dTprime.G + dTaux.H. So responses can be chosen freely and determine the statement, dZ need not be a multiple of c (then ciphertext and commitments move by numbers that are not the same integer), and the new ballot has the same plaintext if and only if Z is the same. C36 (dZ = c.d) and C105 (dZ = 0) are the special cases.", "quantifier": "all accepted ballots with legal elements and the election's parameters, all replacements, all digest functions of 32 bytes; lawful groups of prime order in general and the four curves", "why_tests_cant": "An equivalence over all replacements of eight numbers and four group elements; tests try none of them.", "anchors": ["server.go: verifyVote", "voteproof/voteproof.go: getFSChallenge (statement not hashed)", "voteproof/voteproof.go: Verify", "bulletproofs/bp.go: BulletProof.Verify", "bulletproofs/util.go: HashBP"]}
