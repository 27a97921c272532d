import Verif.Lemmas.Go
import Verif.Lemmas.Common
import Verif.Lemmas.Xor
import Verif.Props.PartyID
import Verif.Props.Common
import Verif.Props.EC
import Verif.Props.Schnorr
import Verif.Props.Wire
import Verif.Props.Keygen
import Verif.Props.KeygenRounds
import Verif.Props.KeygenHonest
import Verif.Props.Ed25519
import Verif.Props.Ckd
import Verif.Props.AliceUtils
import Verif.Lemmas.ModExp
import Verif.Model.RangeProofs
import Verif.Props.RangeProofsEx
import Verif.Props.Paillier
import Verif.Props.PaillierKey
import Verif.Props.PaillierSound
import Verif.Model.CurveReg
import Verif.Props.CurveReg
import Verif.Props.RangeProofsBind
import Verif.Props.RangeSound
import Verif.Props.RangeRounds
import Verif.Props.RangeHiding
import Verif.Props.RingPedHiding
import Verif.Props.ModProofHiding
import Verif.Props.FactorHiding
import Verif.Props.SchnorrHiding
import Verif.Props.UnbiasedAlice
import Verif.Props.SaveData
import Verif.Lemmas.EdVerify
import Verif.Model.Onsign
import Verif.Model.OnsignOps
import Verif.Model.OnsignNet
import Verif.Lemmas.OnsignInv
import Verif.Props.Onsign
import Verif.Props.OnsignNew
import Verif.Props.OnsignHistory
import Verif.Props.World
import Verif.Props.OnsignSetup
import Verif.Props.OnsignHonest
import Verif.Props.OnsignHonestEx
import Verif.Props.Api
import Verif.Props.Commitments
import Verif.Props.Dln
import Verif.Model.ModProof
import Verif.Lemmas.ModProof
import Verif.Props.ModProof
import Verif.Props.ModProofComplete
import Verif.Props.ModProofSound
import Verif.Model.Factor
import Verif.Model.AlicePaillier
import Verif.Model.RingPed
import Verif.Lemmas.AlicePaillier
import Verif.Props.RingPed
import Verif.Props.Factor
import Verif.Props.AlicePaillier
import Verif.Props.AlicePaillierEx
import Verif.Model.SafePrime
import Verif.Props.SafePrime
import Verif.Props.SafePrimeStop
import Verif.Model.Party
import Verif.Props.Party
import Verif.Model.Params
import Verif.Props.Params
import Verif.Lemmas.PrimesSecp
import Verif.Model.ExtKey
import Verif.Props.ExtKey
import Verif.Props.ExtKeyEx
import Verif.Props.CkdBip32
import Verif.Props.SafePrimeSieve
import Verif.Model.NTilde
import Verif.Props.NTilde
import Verif.Lemmas.Ed25519Order
import Verif.Props.Ed25519Order
import Verif.Model.SecpField
import Verif.Model.SecpCurve
import Verif.Model.SecpTable0
import Verif.Model.SecpTable1
import Verif.Model.SecpTable2
import Verif.Model.SecpTable3
import Verif.Model.SecpTable
import Verif.Model.SecpS256
import Verif.Lemmas.SecpWords
import Verif.Lemmas.SecpField
import Verif.Lemmas.SecpMul
import Verif.Lemmas.SecpReduce
import Verif.Lemmas.SecpBytes
import Verif.Lemmas.SecpRep
import Verif.Lemmas.SecpGroup
import Verif.Lemmas.SecpJac
import Verif.Lemmas.SecpOrder
import Verif.Lemmas.SecpMult
import Verif.Lemmas.SecpTable
import Verif.Lemmas.SecpZero
import Verif.Props.SecpField
import Verif.Props.SecpCurve
import Verif.Model.SecpPubkey
import Verif.Props.SecpPubkey
import Verif.Props.CkdSecp
import Verif.Model.Json
import Verif.Model.SaveJson
import Verif.Lemmas.Json
import Verif.Lemmas.JsonPrefix
import Verif.Props.SaveJson
import Verif.Props.CkdResume
import Verif.Lemmas.KeygenFixed
import Verif.Props.KeygenCodes
import Verif.Props.EndToEnd
import Verif.Props.EndToEndEx
import Verif.Props.NonceReuse
import Verif.Props.NonceReuseEx
import Verif.Props.Replay
import Verif.Props.ReplayEx
import Verif.Props.Broadcast
import Verif.Props.Equivocation
import Verif.Props.Blame
import Verif.Props.Framing
import Verif.Props.SignBlame
import Verif.Props.LastRound
import Verif.Props.SignBlameEx
import Verif.Model.Ecdsa
import Verif.Model.Ecies
import Verif.Props.Der
import Verif.Props.Ecdsa
import Verif.Props.Compact
import Verif.Props.Ecdh
import Verif.Props.Ecies
import Verif.Props.Unbiased
import Verif.Props.UnbiasedSum
import Verif.Props.UnbiasedSquares
import Verif.Props.Transcripts
import Verif.Props.KeygenApi
import Verif.Props.SigUnique
import Verif.Model.Messages
import Verif.Props.Messages
import Verif.Model.Bip340
import Verif.Model.Musig2
import Verif.Model.MusigSession
import Verif.Lemmas.Bip340
import Verif.Props.Bip340
import Verif.Props.MusigKeys
import Verif.Props.MusigSign
import Verif.Props.MusigHonest
import Verif.Props.MusigSession
import Verif.Props.MusigFinal
import Verif.Props.MusigStuck
import Verif.Props.MusigRun
import Verif.Model.EcdsaV2
import Verif.Props.EcdsaV2
import Verif.Model.TssError
import Verif.Props.TssError
import Verif.Model.Calls
import Verif.Props.Calls
import Verif.Props.CallsApi
import Verif.Model.SaveAny
import Verif.Props.SaveAny
import Verif.Model.PointJson
import Verif.Props.PointJson
import Verif.Model.Restart
import Verif.Props.Restart
import Verif.Lemmas.Retry
import Verif.Lemmas.OnsignRetry
import Verif.Props.Retry
import Verif.Props.RetryEx
import Verif.Props.RetryKeygen
import Verif.Model.JsonText
import Verif.Lemmas.JsonText
import Verif.Props.ApiJson
import Verif.Model.Readers
import Verif.Props.Readers
import Verif.Props.Ordinary
import Verif.Props.ShareUse
import Verif.Props.RootResidue
import Verif.Props.RootResidueEx
import Verif.Props.Absent
import Verif.Props.AbsentEx
import Verif.Props.Divided
import Verif.Props.DividedEx
import Verif.Props.Rejoin
import Verif.Props.RejoinEx
import Verif.Props.KeygenTwice
import Verif.Props.KeygenRejoin
import Verif.Props.Balance
import Verif.Props.BalanceEx
import Verif.Props.PathLeak
import Verif.Props.PathLeakEx
import Verif.Props.AnswerHides
import Verif.Props.AnswerHidesEx
import Verif.Props.PathLeakSecp
import Verif.Model.MsgText
import Verif.Model.TestIds
import Verif.Props.MsgText
import Verif.Props.TestIds
import Verif.Props.AnswersMany
import Verif.Props.AnswersManyEx
import Verif.Props.GobExact
import Verif.Props.AlicePrimeSize
import Verif.Props.DlnSound
import Verif.Props.DlnCrash
import Verif.Props.FlattenExact
import Verif.Props.Torsion
import Verif.Props.TextExact
import Verif.Props.WireGrammar
import Verif.Props.JsonGrammar
import Verif.Props.PointText
import Verif.Props.SaveText
import Verif.Props.CkdSame
import Verif.Props.Base58
