import Verif.Model.Bip38
import Verif.Model.Exceptions
import Verif.Std.Prims
import Verif.Props.Encoding
import Verif.Props.Coins
import Verif.Props.Wif
import Verif.Props.Address
import Verif.Props.Curve
import Verif.Props.NoEc
import Verif.Props.Decrypt
import Verif.Props.Select
import Verif.Props.Intermediate
import Verif.Props.Create
import Verif.Props.Ec
import Verif.Props.EcExamples
import Verif.Props.Confirm
import Verif.Props.ConfirmExamples
import Verif.Props.Shape
import Verif.Props.Ripemd160
import Verif.Props.Flags
import Verif.Props.Alphabet
import Verif.Props.Exceptions
import Verif.Props.Std
import Verif.Props.PointOps
import Verif.Props.Args
import Verif.Props.WifMore
import Verif.Props.CryptoFns
import Verif.Props.Inject
import Verif.Props.Inverse
import Verif.Props.AddressInj
import Verif.Props.Detail
import Verif.Props.Network
import Verif.Props.InverseEc
import Verif.Props.Starts
import Verif.Props.Outcome
import Verif.Spec.Standard
import Verif.Props.Interop
import Verif.Props.Outcome2
import Verif.Props.Messages
import Verif.Spec.History
import Verif.Props.History
import Verif.Model.Base58Any
import Verif.Lemmas.Utf8
import Verif.Props.AnyKind
import Verif.Model.Bip38Any
import Verif.Props.AnyArgs
import Verif.Model.Bip38Num
import Verif.Props.Numbers
import Verif.Spec.Vectors
import Verif.Props.Vectors
import Verif.Props.VectorsRead
import Verif.Model.World
import Verif.Props.World
import Verif.Model.Bip38Kind
import Verif.Props.Kinds
import Verif.Props.Defaults
import Verif.Props.Threads
import Verif.Props.External
import Verif.Props.BytesRepr
import Verif.Src.All
import Verif.Src.EqUtils
import Verif.Src.EqBase58
import Verif.Src.EqRipemd160
import Verif.Src.EqCrypto
import Verif.Src.EqSecp
import Verif.Src.EqWif
import Verif.Src.EqP2pkh
import Verif.Src.EqBase
import Verif.Src.EqInit
import Verif.Src.EqIntermediate
import Verif.Src.EqEncrypt
import Verif.Src.EqCreate
import Verif.Src.EqConfirm
import Verif.Src.EqDecrypt
import Verif.Src.EqKinds
import Verif.Src.EqAny
import Verif.Spec.Source
import Verif.Spec.Call
import Verif.Lemmas.Call
import Verif.Props.Source
import Verif.Props.SourceBase58
import Verif.Props.SourceWif
import Verif.Props.SourceBip38
import Verif.Props.SourceCalls
import Verif.Props.SourceFlows
import Verif.Props.Counting
import Verif.Props.SourceKinds
import Verif.Props.SourceFaults
import Verif.Props.SourceWork
import Verif.Props.Import
import Verif.Props.SourceCoins
import Verif.Props.SourceStops
import Verif.Props.Steps
import Verif.Props.SourceOrder
import Verif.Props.SourceText
import Verif.Props.SourceTextX
