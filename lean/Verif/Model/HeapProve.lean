import Verif.Model.HeapBp
import Verif.Model.Main

/-!
# Proving, casting and the driver with mutable group elements

The rest of the ballot code with group elements as pointers to cells, continuing `Model/HeapBp.lean`.  The code works with
two groups; their elements have different Go types, so there is one heap for each.  The pure model is compared with this
one by theorem C58.  Randomness is given as in the pure model.
-/

set_option autoImplicit false

namespace MscPoc

namespace HM
variable {E : Type} (GP : Grp E)

/-- `SP.Element().MapToGroup(s)`: every implementation stores into its receiver or into another new element -/
def newMap (s : Bytes) : HM E Nat := do
  let v ← lift (GP.mapToGroup s)
  alloc v

/-- bulletproofs/bp.go:404-409: `R` is accumulated in place. -/
def commitVectorGo : Nat → List Int → List Int → List Nat → List Nat → Nat → HM E Nat
  | 0, _, _, _, _, R => pure R
  | n + 1, aL :: aLs, aR :: aRs, g :: gs, h :: hs, R => do
    let gaL ← newScale GP g aL
    let haR ← newScale GP h aR
    let R ← add GP R R gaL
    let R ← add GP R R haR
    commitVectorGo n aLs aRs gs hs R
  | _ + 1, _, _, _, _, _ => lift none

/-- bulletproofs/bp.go:400-411 `commitVector` -/
def commitVector (aL aR : List Int) (alpha : Int) (H : Nat) (g h : List Nat) (n : Nat) : HM E Nat := do
  let R ← newScale GP H alpha
  commitVectorGo GP n aL aR g h R

/-- bulletproofs/bp.go:390-393: as above, in another order -/
def commitVectorBigGo : Nat → List Int → List Int → List Nat → List Nat → Nat → HM E Nat
  | 0, _, _, _, _, R => pure R
  | n + 1, aL :: aLs, aR :: aRs, g :: gs, h :: hs, R => do
    let gaL ← newScale GP g aL
    let R ← add GP R R gaL
    let haR ← newScale GP h aR
    let R ← add GP R R haR
    commitVectorBigGo n aLs aRs gs hs R
  | _ + 1, _, _, _, _, _ => lift none

/-- bulletproofs/bp.go:386-395 `commitVectorBig` -/
def commitVectorBig (aL aR : List Int) (alpha : Int) (H : Nat) (g h : List Nat) (n : Nat) : HM E Nat := do
  let R ← newScale GP H alpha
  commitVectorBigGo GP n aL aR g h R

/-- bulletproofs/bip.go:291-295 -/
def commitInnerProduct (g h : List Nat) (a b : List Int) : HM E Nat := do
  let ga ← vectorExp GP g a
  let hb ← vectorExp GP h b
  newAdd GP ga hb

/-- bulletproofs/bip.go:136-210 `computeBipRecursive`: `L`, `R`, `Pprime` are built in place (lines 164-173, 191-193). -/
def computeBipRecursive (sha : Bytes → Bytes) (a b : List Int) (g h : List Nat) (u P : Nat) (n : Nat) (Ls Rs : List Nat) :
    HM E (Int × Int × List Nat × List Nat) :=
  if n = 1 then do
    let a0 ← lift a[0]?
    let b0 ← lift b[0]?
    pure (a0, b0, Ls, Rs)
  else if n = 0 then lift none
  else do
    let nprime := n / 2
    let aLo ← lift (sliceTo a nprime)
    let aHi ← lift (sliceFrom a nprime)
    let bLo ← lift (sliceTo b nprime)
    let bHi ← lift (sliceFrom b nprime)
    let gLo ← lift (sliceTo g nprime)
    let gHi ← lift (sliceFrom g nprime)
    let hLo ← lift (sliceTo h nprime)
    let hHi ← lift (sliceFrom h nprime)
    let cL ← lift (scalarProduct aLo bHi GP.N)
    let cR ← lift (scalarProduct aHi bLo GP.N)
    let L ← vectorExp GP gHi aLo
    let Lh ← vectorExp GP hLo bHi
    let L ← add GP L L Lh
    let t ← newScale GP u cL
    let L ← add GP L L t
    let R ← vectorExp GP gLo aHi
    let Rh ← vectorExp GP hHi bLo
    let R ← add GP R R Rh
    let t ← newScale GP u cR
    let R ← add GP R R t
    let xs ← hashBP GP sha L R
    let x := xs.1
    let gh ← foldGens GP g h x nprime
    let x2 := x * x % GP.N
    let x2inv ← lift (modInverse x2 GP.N)
    let P' ← newScale GP L x2
    let P' ← add GP P' P' P
    let t ← newScale GP R x2inv
    let P' ← add GP P' P' t
    let xinv ← lift (modInverse x GP.N)
    let a' := vectorAdd (vectorScalarMul aLo x GP.N) (vectorScalarMul aHi xinv GP.N) GP.N
    let b' := vectorAdd (vectorScalarMul bLo xinv GP.N) (vectorScalarMul bHi x GP.N) GP.N
    computeBipRecursive sha a' b' gh.1 gh.2 u P' nprime (Ls ++ [L]) (Rs ++ [R])
termination_by n
decreasing_by omega

/-- bulletproofs/bip.go:102-131 `proveInnerProduct`; the parameters are kept by reference (line 126). -/
def proveInnerProduct (sha : Bytes → Bytes) (a b : List Int) (P : Nat) (c : Int) (Gg Hh : List Nat) (Uu : Nat) :
    HM E (Except String IPProofH) :=
  if a.length ≠ b.length then pure (.error "size of first array argument must be equal to the second")
  else do
    let x ← hashIP GP sha Gg Hh P c
    let pp ← computePP GP P c x Uu
    let r ← computeBipRecursive GP sha a b Gg Hh pp.2 pp.1 a.length [] []
    pure (.ok { P := P, Cc := some c, A := some r.1, B := some r.2.1, L := r.2.2.1, R := r.2.2.2, Gg := Gg, Hh := Hh, Uu := Uu })

end HM

/-- `BulletProofSetupParams` with pointers for elements (bulletproofs/bp.go:35-50) -/
structure BPParamsH where
  N : Nat
  G : Nat
  H : Nat
  Gg : List Nat
  Hh : List Nat

/-- the elements the parameters refer to -/
def BPParamsH.ptrs (p : BPParamsH) : List Nat := p.G :: p.H :: (p.Gg ++ p.Hh)

/-- the contents of the parameters -/
def BPParamsH.deref {E : Type} (GP : Grp E) (h : HS E) (p : BPParamsH) : BPParams E :=
  { N := p.N, G := h.el p.G, H := h.el p.H, Gg := p.Gg.map h.el, Hh := p.Hh.map h.el, GP := GP }

namespace HM
variable {E : Type} (GP : Grp E)

/-- bulletproofs/bip.go:61-89 `setupInnerProduct(g, h, N, SP)` for non-nil `g`, `h`, which are kept by reference:
the new element `Uu` -/
def setupInnerProduct (N : Int) : HM E (Except String Nat) :=
  if N ≤ 0 then pure (.error "N must be greater than zero")
  else do
    let Uu ← newMap GP SEEDU
    pure (.ok Uu)

/-- bulletproofs/bp.go:121-242: `Prove` after the commitment `V`; `hp[0]` is `params.Hh[0]`, and `Gg` is shared with the
parameters. -/
def proveFrom (sha : Bytes → Bytes) (params : BPParamsH) (rnd : BPRand) (V : Nat) (aL aR : List Int) :
    HM E (Except String BulletProofH) := do
  let mod := GP.N
  let A ← commitVector GP aL aR rnd.alpha params.H params.Gg params.Hh params.N
  let S ← commitVectorBig GP rnd.sL rnd.sR rnd.rho params.H params.Gg params.Hh params.N
  let yz ← hashBP GP sha A S
  let y := yz.1
  let z := yz.2
  let yPow := powerOf y params.N mod
  let powersOf2 := powerOf 2 params.N mod
  let zSquared := z * z
  let powersOf2TimesZSquared := vectorScalarMul powersOf2 zSquared mod
  let aLb ← lift (vectorConvertToBig aL params.N)
  let aRb ← lift (vectorConvertToBig aR params.N)
  let l0 := vectorAddConst aLb (-z) mod
  let l1 := rnd.sL
  let vecZ := vectorCopy z params.N
  let aRzn := vectorAdd vecZ aRb mod
  let r0 := vectorMul yPow aRzn mod
  let r0 := vectorAdd r0 powersOf2TimesZSquared mod
  let r1 := vectorMul yPow rnd.sR mod
  let t1left ← lift (vectorInnerProduct l1 r0 mod)
  let t1right ← lift (vectorInnerProduct l0 r1 mod)
  let t1 := (t1left + t1right) % mod
  let t2 ← lift (vectorInnerProduct l1 r1 mod)
  let T1 ← pedersenCommit GP t1 rnd.tau1 params.H
  let T2 ← pedersenCommit GP t2 rnd.tau2 params.H
  let xs ← hashBP GP sha T1 T2
  let x := xs.1
  let sLx := vectorScalarMul rnd.sL x mod
  let bl := vectorAdd l0 sLx mod
  let sRx := vectorScalarMul rnd.sR x mod
  let tmp := vectorAdd aRzn sRx mod
  let tmp := vectorMul yPow tmp mod
  let br := vectorAdd tmp powersOf2TimesZSquared mod
  let th ← lift (scalarProduct bl br mod)
  let tauX := rnd.tau2 * (x * x)
  let tauX := tauX + rnd.tau1 * x
  let tauX := tauX + zSquared * rnd.gamma
  let tauX := tauX % mod
  let mu := (rnd.rho * x + rnd.alpha) % mod
  let hp ← updateGenerators GP params.Hh y params.N
  let Uu ← setupInnerProduct GP params.N
  match Uu with
  | .error e => pure (.error e)
  | .ok Uu => do
    let commit ← commitInnerProduct GP params.Gg hp bl br
    let ip ← proveInnerProduct GP sha bl br commit th params.Gg hp Uu
    match ip with
    | .error _ => lift none
    | .ok ip =>
      pure (.ok { V := V, A := A, S := S, T1 := T1, T2 := T2, Taux := some tauX, Mu := some mu, Tprime := some th,
                  ip := ip, N := params.N, G := params.G, H := params.H, Gg := params.Gg, Hh := params.Hh })

/-- bulletproofs/bp.go:104-243 `Prove(secret, params)` -/
def bpProve (sha : Bytes → Bytes) (params : BPParamsH) (rnd : BPRand) (secret : Int) :
    HM E (Except String (BulletProofH × Int)) := do
  let V ← pedersenCommit GP secret rnd.gamma params.H
  let aL := decompose secret 2 params.N
  let aR := computeAR aL
  let r ← proveFrom GP sha params rnd V aL aR
  match r with
  | .error e => pure (.error e)
  | .ok proof => pure (.ok (proof, rnd.gamma))

end HM

/-! ## Two groups -/

/-- a computation on both heaps; `none` = panic -/
def HM2 (E₁ E₂ α : Type) : Type := HS E₁ × HS E₂ → Option (α × (HS E₁ × HS E₂))

instance {E₁ E₂ : Type} : Monad (HM2 E₁ E₂) where
  pure a := fun h => some (a, h)
  bind m f := fun h => match m h with
    | none => none
    | some (a, h') => f a h'

namespace HM2
variable {E₁ E₂ α : Type}

/-- a step that touches no heap and may panic -/
def lift (o : Option α) : HM2 E₁ E₂ α := fun h => match o with
  | none => none
  | some a => some (a, h)

/-- a step on the elements of the first group -/
def on1 (m : HM E₁ α) : HM2 E₁ E₂ α := fun h => match m h.1 with
  | none => none
  | some (a, h1) => some (a, h1, h.2)

/-- a step on the elements of the second group -/
def on2 (m : HM E₂ α) : HM2 E₁ E₂ α := fun h => match m h.2 with
  | none => none
  | some (a, h2) => some (a, h.1, h2)

end HM2

/-- `GroupParameters` with pointers for elements (voteproof/voteproof.go:16-22) -/
structure GroupParamsH (E : Type) where
  G : Nat
  H : Nat
  N : Option Int
  F : Option Int
  I : Grp E

/-- the contents of the group parameters -/
def GroupParamsH.deref {E : Type} (h : HS E) (p : GroupParamsH E) : GroupParams E :=
  { G := h.el p.G, H := h.el p.H, N := p.N, F := p.F, I := p.I }

/-- `ProofParams` with pointers for elements (voteproof/voteproof.go:31-39) -/
structure ProofParamsH (E₁ E₂ : Type) where
  Bx : UInt8
  Bc : UInt16
  Bg : UInt16
  Bb : Int
  RangeLo : UInt16
  RangeHi : UInt16
  GFF : GroupParamsH E₁
  GEC : GroupParamsH E₂

/-- the contents of the proof parameters -/
def ProofParamsH.deref {E₁ E₂ : Type} (h : HS E₁ × HS E₂) (p : ProofParamsH E₁ E₂) : ProofParams E₁ E₂ :=
  { Bx := p.Bx, Bc := p.Bc, Bg := p.Bg, Bb := p.Bb, RangeLo := p.RangeLo, RangeHi := p.RangeHi,
    GFF := p.GFF.deref h.1, GEC := p.GEC.deref h.2 }

/-- all elements of the parameters are allocated -/
def ProofParamsH.Live {E₁ E₂ : Type} (h : HS E₁ × HS E₂) (p : ProofParamsH E₁ E₂) : Prop :=
  (p.GFF.G < h.1.next ∧ p.GFF.H < h.1.next) ∧ p.GEC.G < h.2.next ∧ p.GEC.H < h.2.next

/-- `SigmaProof` with pointers for elements (voteproof/voteproof.go:50-77) -/
structure SigmaProofH (E₁ E₂ : Type) where
  W : Nat
  Kp : Nat
  Kq1 : Nat
  Kq2 : Nat
  Challenge : Option Int
  Z : Option Int
  Sp : Option Int
  Sq1 : Option Int
  Sq2 : Option Int
  Params : ProofParamsH E₁ E₂

/-- the contents of a sigma proof -/
def SigmaProofH.deref {E₁ E₂ : Type} (h : HS E₁ × HS E₂) (p : SigmaProofH E₁ E₂) : SigmaProof E₁ E₂ :=
  { W := h.1.el p.W, Kp := h.1.el p.Kp, Kq1 := h.2.el p.Kq1, Kq2 := h.2.el p.Kq2, Challenge := p.Challenge, Z := p.Z,
    Sp := p.Sp, Sq1 := p.Sq1, Sq2 := p.Sq2, Params := p.Params.deref h }

/-- all elements of the proof are allocated -/
def SigmaProofH.Live {E₁ E₂ : Type} (h : HS E₁ × HS E₂) (p : SigmaProofH E₁ E₂) : Prop :=
  (p.W < h.1.next ∧ p.Kp < h.1.next) ∧ (p.Kq1 < h.2.next ∧ p.Kq2 < h.2.next) ∧ p.Params.Live h

/-- `VerCommitments` with pointers (voteproof/voteproof.go:42-47) -/
structure VerCommitmentsH where
  Y : Nat
  Xp : Nat
  Xq1 : Nat
  Xq2 : Nat

/-- the contents of the commitments -/
def VerCommitmentsH.deref {E₁ E₂ : Type} (h : HS E₁ × HS E₂) (c : VerCommitmentsH) : VerCommitments E₁ E₂ :=
  { Y := h.1.el c.Y, Xp := h.1.el c.Xp, Xq1 := h.2.el c.Xq1, Xq2 := h.2.el c.Xq2 }

/-- all elements are allocated -/
def VerCommitmentsH.Live {E₁ E₂ : Type} (h : HS E₁ × HS E₂) (c : VerCommitmentsH) : Prop :=
  (c.Y < h.1.next ∧ c.Xp < h.1.next) ∧ c.Xq1 < h.2.next ∧ c.Xq2 < h.2.next

/-- voteproof/voteproof.go:99-103 `pedersenCommit` -/
def HM.vpCommit {E : Type} (m r : Int) (gp : GroupParamsH E) : HM E Nat := do
  let bind ← HM.newBaseScale gp.I m
  let blind ← HM.newScale gp.I gp.H r
  HM.newAdd gp.I bind blind

/-- voteproof/voteproof.go:105-110 `sigmaPedersenCheck` -/
def HM.sigmaPedersenCheck {E : Type} (z s c : Int) (k x : Nat) (gp : GroupParamsH E) : HM E Bool := do
  let left ← HM.vpCommit z s gp
  let right ← HM.newScale gp.I x c
  let right ← HM.newAdd gp.I right k
  let l ← HM.read left
  let r ← HM.read right
  pure (gp.I.isEqual l r)

namespace HM2
variable {E₁ E₂ : Type}

/-- voteproof/voteproof.go:112-124 `getFSChallenge` -/
def getFSChallenge (sha : Bytes → Bytes) (G₁ : Grp E₁) (G₂ : Grp E₂) (w Kp Kq1 Kq2 : Nat) (pow2bound : UInt16) :
    HM2 E₁ E₂ Int := do
  let w ← on1 (HM.read w)
  let Kp ← on1 (HM.read Kp)
  let Kq1 ← on2 (HM.read Kq1)
  let Kq2 ← on2 (HM.read Kq2)
  lift (MscPoc.getFSChallenge sha G₁ G₂ w Kp Kq1 Kq2 pow2bound)

/-- voteproof/voteproof.go:135-175: one iteration of the abort loop -/
def sigmaAttempt (sha : Bytes → Bytes) (params : ProofParamsH E₁ E₂) (secret rp rq1 rq2 : Int) (s : SigmaSample) :
    HM2 E₁ E₂ (Option (SigmaProofH E₁ E₂)) := do
  let NF ← lift params.GFF.N
  let NE ← lift params.GEC.N
  let kp := s.k % NF
  let kq := s.k % NF
  let w ← on1 (HM.newBaseScale params.GFF.I s.tp)
  let Kp ← on1 (HM.vpCommit kp s.tp params.GFF)
  let Kq1 ← on2 (HM.vpCommit kq s.tq1 params.GEC)
  let Kq2 ← on2 (HM.vpCommit kq s.tq2 params.GEC)
  let challenge ← getFSChallenge sha params.GFF.I params.GEC.I w Kp Kq1 Kq2 params.Bc
  let z := s.k + challenge * secret
  let bxbc := (params.Bx.toUInt16 + params.Bc).toNat
  if z < 2 ^ bxbc ∨ 2 ^ ((bxbc : Int) + params.Bb).toNat ≤ z then pure none
  else
    let sp := (s.tp + challenge * rp) % NF
    let sq1 := (s.tq1 + challenge * rq1) % NE
    let sq2 := (s.tq2 + challenge * rq2) % NE
    pure (some { W := w, Kp := Kp, Kq1 := Kq1, Kq2 := Kq2, Challenge := some challenge, Z := some z,
                 Sp := some sp, Sq1 := some sq1, Sq2 := some sq2, Params := params })

/-- voteproof/voteproof.go:200-225: the four group equations of `Verify` -/
def sigmaEqs (proof : SigmaProofH E₁ E₂) (comm : VerCommitmentsH) (Z c : Int) : HM2 E₁ E₂ Bool := do
  let pp := proof.Params
  let Sp ← lift proof.Sp
  let l ← on1 (HM.newBaseScale pp.GFF.I Sp)
  let r ← on1 (HM.newScale pp.GFF.I comm.Y c)
  let r ← on1 (HM.newAdd pp.GFF.I r proof.W)
  let lv ← on1 (HM.read l)
  let rv ← on1 (HM.read r)
  if !pp.GFF.I.isEqual lv rv then pure false
  else do
    let ok ← on1 (HM.sigmaPedersenCheck Z Sp c proof.Kp comm.Xp pp.GFF)
    if !ok then pure false
    else do
      let Sq1 ← lift proof.Sq1
      let ok ← on2 (HM.sigmaPedersenCheck Z Sq1 c proof.Kq1 comm.Xq1 pp.GEC)
      if !ok then pure false
      else do
        let Sq2 ← lift proof.Sq2
        let ok ← on2 (HM.sigmaPedersenCheck Z Sq2 c proof.Kq2 comm.Xq2 pp.GEC)
        if !ok then pure false else pure true

/-- voteproof/voteproof.go:182-226 `SigmaProof.Verify(comm)` -/
def sigmaVerify (sha : Bytes → Bytes) (proof : SigmaProofH E₁ E₂) (comm : VerCommitmentsH) : HM2 E₁ E₂ Bool := do
  let pp := proof.Params
  let Z ← lift proof.Z
  let bxbc := (pp.Bx.toUInt16 + pp.Bc).toNat
  if Z < 2 ^ bxbc ∨ 2 ^ ((bxbc : Int) + pp.Bb).toNat ≤ Z then pure false
  else do
    let challenge ← getFSChallenge sha pp.GFF.I pp.GEC.I proof.W proof.Kp proof.Kq1 proof.Kq2 pp.Bc
    let c ← lift proof.Challenge
    if challenge ≠ c then pure false
    else sigmaEqs proof comm Z c

end HM2

/-- `BallotData` with pointers for elements (voter.go:12-17); `GPL`, `GPU` are the groups in the parameters of the two
range proofs. -/
structure BallotDataH (E₁ E₂ : Type) where
  U : Nat
  V : Nat
  GPL : Grp E₂
  BpLower : BulletProofH
  GPU : Grp E₂
  BpUpper : BulletProofH
  VoteProof : SigmaProofH E₁ E₂

/-- the contents of a ballot -/
def BallotDataH.deref {E₁ E₂ : Type} (h : HS E₁ × HS E₂) (b : BallotDataH E₁ E₂) : BallotData E₁ E₂ :=
  { Ballot := { U := h.1.el b.U, V := h.1.el b.V }, BpLower := b.BpLower.deref b.GPL h.2, BpUpper := b.BpUpper.deref b.GPU h.2,
    VoteProof := b.VoteProof.deref h }

/-- all elements of the ballot are allocated -/
def BallotDataH.Live {E₁ E₂ : Type} (h : HS E₁ × HS E₂) (b : BallotDataH E₁ E₂) : Prop :=
  (b.U < h.1.next ∧ b.V < h.1.next) ∧ (∀ p ∈ b.BpLower.ptrs, p < h.2.next) ∧ (∀ p ∈ b.BpUpper.ptrs, p < h.2.next) ∧
    b.VoteProof.Live h

/-- `PublicParameters` with pointers for elements (main.go:13-28); `GP` is `BPParams.GP` -/
structure PublicParamsH (E₁ E₂ : Type) where
  FFGroupParams : GroupParamsH E₁
  ECGroupParams : GroupParamsH E₂
  EGPK : Nat
  candidateMin : UInt16
  candidateMax : UInt16
  GP : Grp E₂
  BPParams : BPParamsH
  RPParams : ProofParamsH E₁ E₂

/-- the contents of the public parameters -/
def PublicParamsH.deref {E₁ E₂ : Type} (h : HS E₁ × HS E₂) (p : PublicParamsH E₁ E₂) : PublicParams E₁ E₂ :=
  { FFGroupParams := p.FFGroupParams.deref h.1, ECGroupParams := p.ECGroupParams.deref h.2, EGPK := h.1.el p.EGPK,
    candidateMin := p.candidateMin, candidateMax := p.candidateMax, BPParams := p.BPParams.deref p.GP h.2,
    RPParams := p.RPParams.deref h }

/-- all elements of the public parameters are allocated -/
def PublicParamsH.Live {E₁ E₂ : Type} (h : HS E₁ × HS E₂) (p : PublicParamsH E₁ E₂) : Prop :=
  (p.FFGroupParams.G < h.1.next ∧ p.FFGroupParams.H < h.1.next) ∧ (p.ECGroupParams.G < h.2.next ∧ p.ECGroupParams.H < h.2.next) ∧
    p.EGPK < h.1.next ∧ (∀ q ∈ p.BPParams.ptrs, q < h.2.next) ∧ p.RPParams.Live h

/-- elgamal.go:14-28 `encryptVote` -/
def HM.encryptVote {E : Type} (FFG : Grp E) (egPK : Nat) (choice : UInt16) (r : Int) : HM E ((Nat × Nat) × Int) :=
  if FFG.N - 1 ≤ 0 then HM.lift none
  else do
    let rnd := r + 1
    let liftedMessage ← HM.newBaseScale FFG (choice.toNat : Int)
    let mask ← HM.newScale FFG egPK rnd
    let U ← HM.newBaseScale FFG rnd
    let V ← HM.newAdd FFG liftedMessage mask
    pure ((U, V), rnd)

/-- server.go:25-40: the shifted commitments -/
def HM.shiftedCommitments {E : Type} (I : Grp E) (VL VU : Nat) (lo hi : UInt16) : HM E (Nat × Nat) := do
  let loShift ← HM.newBaseScale I (lo.toNat : Int)
  let Xq1 ← HM.newAdd I loShift VL
  let upShift ← HM.newBaseScale I (hi.toNat : Int)
  let inv ← HM.newScale I VU (-1)
  let Xq2 ← HM.newAdd I upShift inv
  pure (Xq1, Xq2)

namespace HM2
variable {E₁ E₂ : Type}

/-- server.go:9-56 `verifyVote` -/
def verifyVote (sha : Bytes → Bytes) (b : BallotDataH E₁ E₂) (rp : ProofParamsH E₁ E₂) : HM2 E₁ E₂ VerifyOut := do
  let ok1 ← on2 (b.BpLower.verify b.GPL sha)
  if !ok1 then pure { result := false, times := [] }
  else do
    let ok2 ← on2 (b.BpUpper.verify b.GPU sha)
    if !ok2 then pure { result := false, times := [] }
    else do
      let X ← on2 (HM.shiftedCommitments rp.GEC.I b.BpLower.V b.BpUpper.V rp.RangeLo rp.RangeHi)
      let result ← sigmaVerify sha b.VoteProof { Y := b.U, Xp := b.V, Xq1 := X.1, Xq2 := X.2 }
      pure { result := result, times := [0, 0] }

/-- voter.go:19-31: everything before the abort loop: the choice, the ciphertext, the range proofs and the secrets
`rp`, `rq1`, `rq2inv` handed to `voteproof.Prove` -/
def castHead (sha : Bytes → Bytes) (pp : PublicParamsH E₁ E₂) (rnd : CastRand) :
    HM2 E₁ E₂ ((UInt16 × Nat × Nat × BulletProofH × BulletProofH) × Int × Int × Int) := do
  if (pp.candidateMax - pp.candidateMin).toNat = 0 then lift none
  else do
    let choice := UInt16.ofNat rnd.rChoice.toNat + pp.candidateMin
    let ct ← on1 (HM.encryptVote pp.FFGroupParams.I pp.EGPK choice rnd.rEnc)
    let r1 ← on2 (HM.bpProve pp.GP sha pp.BPParams rnd.bp1 ((choice - pp.candidateMin).toNat : Int))
    match r1 with
    | .error _ => lift none
    | .ok (bp1, rq1) => do
      let r2 ← on2 (HM.bpProve pp.GP sha pp.BPParams rnd.bp2 ((pp.candidateMax - choice).toNat : Int))
      match r2 with
      | .error _ => lift none
      | .ok (bp2, rq2) => do
        let N ← lift pp.ECGroupParams.N
        pure ((choice, ct.1.1, ct.1.2, bp1, bp2), ct.2, rq1, N - rq2)

end HM2

/-- voteproof/voteproof.go:126-177 `Prove` run on a prefix of the random tape, with the heaps at the end -/
def sigmaProveH {E₁ E₂ : Type} (sha : Bytes → Bytes) (params : ProofParamsH E₁ E₂) (secret rp rq1 rq2 : Int) :
    List SigmaSample → HS E₁ × HS E₂ → Outcome (SigmaProofH E₁ E₂ × (HS E₁ × HS E₂))
  | [], _ => .running
  | s :: tape, h =>
    match HM2.sigmaAttempt sha params secret rp rq1 rq2 s h with
    | none => .panic
    | some (none, h') => sigmaProveH sha params secret rp rq1 rq2 tape h'
    | some (some p, h') => .done (p, h')

/-- voter.go:19-45 `castVote(pp)` with the heaps at the end -/
def castVoteH {E₁ E₂ : Type} (sha : Bytes → Bytes) (pp : PublicParamsH E₁ E₂) (rnd : CastRand) (h : HS E₁ × HS E₂) :
    Outcome (BallotDataH E₁ E₂ × (HS E₁ × HS E₂)) :=
  match HM2.castHead sha pp rnd h with
  | none => .panic
  | some (((choice, U, V, bp1, bp2), rp, rq1, rq2inv), h1) =>
    match sigmaProveH sha pp.RPParams (choice.toNat : Int) rp rq1 rq2inv rnd.tape h1 with
    | .running => .running
    | .panic => .panic
    | .done (p, h2) =>
      .done ({ U := U, V := V, GPL := pp.GP, BpLower := bp1, GPU := pp.GP, BpUpper := bp2, VoteProof := p }, h2)

/-- main.go:142-152: the driver loop on the heaps -/
def benchLoopH {E₁ E₂ : Type} (sha : Bytes → Bytes) (pp : PublicParamsH E₁ E₂) :
    List CastRand → Bool → HS E₁ × HS E₂ → Outcome (Bool × (HS E₁ × HS E₂))
  | [], success, h => .done (success, h)
  | rnd :: rnds, success, h =>
    match castVoteH sha pp rnd h with
    | .running => .running
    | .panic => .panic
    | .done (vote, h1) =>
      match HM2.verifyVote sha vote pp.RPParams h1 with
      | none => .panic
      | some (out, h2) =>
        match out.times[0]?, out.times[1]? with
        | some _, some _ => benchLoopH sha pp rnds (success && out.result) h2
        | _, _ => .panic

/-- one request to a process that holds ballots: cast another one, or verify the `i`-th -/
inductive Req where
  | cast (rnd : CastRand)
  | verify (i : Nat)

/-- Requests served one after the other on shared heaps: the ballots held and the verdicts given, in order.
A request for a ballot that is not held is ignored. -/
def serveH {E₁ E₂ : Type} (sha : Bytes → Bytes) (pp : PublicParamsH E₁ E₂) :
    List Req → List (BallotDataH E₁ E₂) → HS E₁ × HS E₂ →
      Outcome ((List (BallotDataH E₁ E₂) × List VerifyOut) × (HS E₁ × HS E₂))
  | [], bs, h => .done ((bs, []), h)
  | .cast rnd :: rs, bs, h =>
    match castVoteH sha pp rnd h with
    | .running => .running
    | .panic => .panic
    | .done (b, h') => serveH sha pp rs (bs ++ [b]) h'
  | .verify i :: rs, bs, h =>
    match bs[i]? with
    | none => serveH sha pp rs bs h
    | some b =>
      match HM2.verifyVote sha b pp.RPParams h with
      | none => .panic
      | some (out, h') =>
        match serveH sha pp rs bs h' with
        | .running => .running
        | .panic => .panic
        | .done ((bs', outs), h'') => .done ((bs', out :: outs), h'')

/-- the same with ballots as values -/
def serve {E₁ E₂ : Type} (sha : Bytes → Bytes) (pp : PublicParams E₁ E₂) :
    List Req → List (BallotData E₁ E₂) → Outcome (List (BallotData E₁ E₂) × List VerifyOut)
  | [], bs => .done (bs, [])
  | .cast rnd :: rs, bs =>
    match castVote sha pp rnd with
    | .running => .running
    | .panic => .panic
    | .done b => serve sha pp rs (bs ++ [b])
  | .verify i :: rs, bs =>
    match bs[i]? with
    | none => serve sha pp rs bs
    | some b =>
      match verifyVote sha b pp.RPParams with
      | none => .panic
      | some out =>
        match serve sha pp rs bs with
        | .running => .running
        | .panic => .panic
        | .done (bs', outs) => .done (bs', out :: outs)

end MscPoc
