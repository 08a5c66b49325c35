import Verif.Lemmas.Affine
import Verif.Lemmas.Alloc
import Verif.Lemmas.AllocMulti
import Verif.Lemmas.Basic
import Verif.Lemmas.BpAlg
import Verif.Lemmas.BpCheck
import Verif.Lemmas.BpHide
import Verif.Lemmas.BpLeaf
import Verif.Lemmas.BpModel
import Verif.Lemmas.BpProgress
import Verif.Lemmas.BpProve
import Verif.Lemmas.BpRange
import Verif.Lemmas.BpRepaired
import Verif.Lemmas.BpSound
import Verif.Lemmas.BpSoundC
import Verif.Lemmas.BpVerify
import Verif.Lemmas.Bytes
import Verif.Lemmas.Codec
import Verif.Lemmas.Curve
import Verif.Lemmas.CurveLawful
import Verif.Lemmas.DecCrash
import Verif.Lemmas.Decompress
import Verif.Lemmas.ECPP
import Verif.Lemmas.Edwards
import Verif.Lemmas.H2CValues
import Verif.Lemmas.HashToCurve
import Verif.Lemmas.HeapBp
import Verif.Lemmas.HeapCast
import Verif.Lemmas.HeapMulti
import Verif.Lemmas.HeapProve
import Verif.Lemmas.HeapSetup
import Verif.Lemmas.HeapVote
import Verif.Lemmas.Ipp
import Verif.Lemmas.Ipp2
import Verif.Lemmas.IppProgress
import Verif.Lemmas.IppSound
import Verif.Lemmas.IppSound2
import Verif.Lemmas.JsonKey
import Verif.Lemmas.JsonPrint
import Verif.Lemmas.JsonText
import Verif.Lemmas.K1
import Verif.Lemmas.K1Hash
import Verif.Lemmas.K1Values
import Verif.Lemmas.Layout
import Verif.Lemmas.Legal
import Verif.Lemmas.Marshal
import Verif.Lemmas.ModP
import Verif.Lemmas.MultiBp
import Verif.Lemmas.MultiHide
import Verif.Lemmas.MultiProve
import Verif.Lemmas.MultiRepair
import Verif.Lemmas.MultiSound
import Verif.Lemmas.NilTail
import Verif.Lemmas.ObjectCalls
import Verif.Lemmas.Objects
import Verif.Lemmas.Prime
import Verif.Lemmas.PrimeCerts
import Verif.Lemmas.Rand
import Verif.Lemmas.RandBytes
import Verif.Lemmas.RandUniform
import Verif.Lemmas.Recorded256
import Verif.Lemmas.Recorded384
import Verif.Lemmas.RecordedBallot
import Verif.Lemmas.RecordedDecode
import Verif.Lemmas.RecordedText
import Verif.Lemmas.Reduced
import Verif.Lemmas.Repeated
import Verif.Lemmas.RfcCert1
import Verif.Lemmas.RfcCert2
import Verif.Lemmas.RfcCert3
import Verif.Lemmas.RfcCert4
import Verif.Lemmas.RfcCert5
import Verif.Lemmas.RfcCert6
import Verif.Lemmas.RfcPrime
import Verif.Lemmas.Ristretto
import Verif.Lemmas.RistrettoAlg
import Verif.Lemmas.RistrettoEnc
import Verif.Lemmas.Robust
import Verif.Lemmas.SWCompute
import Verif.Lemmas.SWCurve
import Verif.Lemmas.Setup
import Verif.Lemmas.Sha2
import Verif.Lemmas.Sigma
import Verif.Lemmas.SigmaModel
import Verif.Lemmas.Size
import Verif.Lemmas.Straus
import Verif.Lemmas.Tests
import Verif.Lemmas.Transcript2
import Verif.Lemmas.Utf8
import Verif.Lemmas.Vec
import Verif.Lemmas.Vote
import Verif.Model.Bip
import Verif.Model.Bp
import Verif.Model.Curve
import Verif.Model.Decompress
import Verif.Model.GoBase
import Verif.Model.Group
import Verif.Model.HashToCurve
import Verif.Model.Heap
import Verif.Model.HeapBp
import Verif.Model.HeapMulti
import Verif.Model.HeapProve
import Verif.Model.HeapSetup
import Verif.Model.Json
import Verif.Model.JsonText
import Verif.Model.K1Hash
import Verif.Model.Main
import Verif.Model.MainOut
import Verif.Model.Marshal
import Verif.Model.ModP
import Verif.Model.MultiBp
import Verif.Model.MultiOut
import Verif.Model.NilTail
import Verif.Model.Objects
import Verif.Model.Points
import Verif.Model.Rand
import Verif.Model.RandMulti
import Verif.Model.Receive
import Verif.Model.Ristretto
import Verif.Model.RistrettoEnc
import Verif.Model.RistrettoJson
import Verif.Model.Sha2
import Verif.Model.Tests
import Verif.Model.Utf8
import Verif.Model.Util
import Verif.Model.Vector
import Verif.Model.Vote
import Verif.Model.VoteProof
import Verif.Props.Alloc
import Verif.Props.AllocMulti
import Verif.Props.Attempts
import Verif.Props.Ballot
import Verif.Props.BallotHiding
import Verif.Props.BallotHidingAll
import Verif.Props.BallotSound
import Verif.Props.BallotSoundC
import Verif.Props.BallotSoundCEx
import Verif.Props.BallotSoundEx
import Verif.Props.Basic
import Verif.Props.Binary
import Verif.Props.Bp
import Verif.Props.BpRepaired
import Verif.Props.BpSound
import Verif.Props.BpSoundC
import Verif.Props.BpTight
import Verif.Props.Codec
import Verif.Props.Commit
import Verif.Props.Copy
import Verif.Props.CrossCurve
import Verif.Props.Curve
import Verif.Props.DecCrash
import Verif.Props.Driver
import Verif.Props.FirstMoves
import Verif.Props.HashToCurve
import Verif.Props.HeapMulti
import Verif.Props.HeapSetup
import Verif.Props.HeapState
import Verif.Props.Hiding
import Verif.Props.HidingAll
import Verif.Props.Ipp
import Verif.Props.IppSound
import Verif.Props.Json
import Verif.Props.JsonText
import Verif.Props.K1
import Verif.Props.K1Hash
import Verif.Props.MainOut
import Verif.Props.ModP
import Verif.Props.MultiBp
import Verif.Props.MultiCrash
import Verif.Props.MultiHiding
import Verif.Props.MultiOpen
import Verif.Props.MultiRepair
import Verif.Props.MultiSound
import Verif.Props.MultiTotal
import Verif.Props.MultiVerify
import Verif.Props.NilTail
import Verif.Props.Objects
import Verif.Props.PublicKey
import Verif.Props.R255Json
import Verif.Props.Rand
import Verif.Props.RandBytes
import Verif.Props.RandGroups
import Verif.Props.RandHiding
import Verif.Props.RandMulti
import Verif.Props.RandMultiTotal
import Verif.Props.Receive
import Verif.Props.RecordedBallot
import Verif.Props.RecordedFiles
import Verif.Props.Reduced
import Verif.Props.RepairTotal
import Verif.Props.Repeated
import Verif.Props.RepeatedBb
import Verif.Props.Ristretto
import Verif.Props.RistrettoEnc
import Verif.Props.Robust
import Verif.Props.Setup
import Verif.Props.Sigma
import Verif.Props.State
import Verif.Props.Tamper
import Verif.Props.Tests
import Verif.Props.TestsTotal
import Verif.Props.TextBytes
import Verif.Props.TextDeployed
import Verif.Props.Transcript
import Verif.Props.Transcript2
import Verif.Props.Transport
import Verif.Props.Vote
import Verif.Props.VoteError
import Verif.Props.WeakFS
import Verif.Spec.Alloc
import Verif.Spec.Attempts
import Verif.Spec.BallotExtract
import Verif.Spec.BallotExtractC
import Verif.Spec.Bp
import Verif.Spec.BpExtract
import Verif.Spec.BpExtractC
import Verif.Spec.BpHistory
import Verif.Spec.BpRepaired
import Verif.Spec.CrossCurve
import Verif.Spec.DecCrash
import Verif.Spec.Extract
import Verif.Spec.HashToCurve
import Verif.Spec.Ipp
import Verif.Spec.JsonEdit
import Verif.Spec.JsonGrammar
import Verif.Spec.JsonKey
import Verif.Spec.K1Hash
import Verif.Spec.K1Values
import Verif.Spec.Lawful
import Verif.Spec.Layout
import Verif.Spec.MainOut
import Verif.Spec.MultiOpen
import Verif.Spec.MultiRepair
import Verif.Spec.MultiRobust
import Verif.Spec.MultiSound
import Verif.Spec.Objects
import Verif.Spec.Opening
import Verif.Spec.RandBytes
import Verif.Spec.Receive
import Verif.Spec.Recorded
import Verif.Spec.RecordedBallot
import Verif.Spec.RecordedText
import Verif.Spec.Reduced
import Verif.Spec.RistrettoEnc
import Verif.Spec.Robust
import Verif.Spec.Transport
import Verif.Spec.Utf8
import Verif.Spec.Vec
import Verif.Spec.VoteError
import Verif.Toy
