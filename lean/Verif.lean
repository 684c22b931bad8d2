import Verif.Model.ABCI
import Verif.Model.Authn
import Verif.Model.Bank
import Verif.Model.Bech32
import Verif.Model.Builder
import Verif.Model.Bytes
import Verif.Model.CEcdsa
import Verif.Model.CEcmult
import Verif.Model.CField
import Verif.Model.CGen
import Verif.Model.CGroup
import Verif.Model.CHash
import Verif.Model.CMult
import Verif.Model.CProduct
import Verif.Model.CScalar
import Verif.Model.CSign
import Verif.Model.Client
import Verif.Model.Codegen
import Verif.Model.Coins
import Verif.Model.Conv
import Verif.Model.Curve
import Verif.Model.Decoder
import Verif.Model.Desc
import Verif.Model.Ecdsa
import Verif.Model.Files
import Verif.Model.GenFiles
import Verif.Model.Hash
import Verif.Model.Http
import Verif.Model.Index
import Verif.Model.KV
import Verif.Model.KeyText
import Verif.Model.Kind
import Verif.Model.Nist
import Verif.Model.ORM
import Verif.Model.OpenApi
import Verif.Model.Out
import Verif.Model.Proto
import Verif.Model.Protos
import Verif.Model.Query
import Verif.Model.RBAC
import Verif.Model.Runtime
import Verif.Model.Schema
import Verif.Model.SdkCoins
import Verif.Model.Secp
import Verif.Model.Services
import Verif.Model.Sign
import Verif.Model.Spare
import Verif.Model.System
import Verif.Model.TestApp
import Verif.Model.TestModule
import Verif.Model.Universe
import Verif.Model.Users
import Verif.Model.Wire
import Verif.Spec.Accept
import Verif.Spec.Assumptions
import Verif.Spec.Bech32
import Verif.Spec.CEcdsa
import Verif.Spec.CField
import Verif.Spec.CGroup
import Verif.Spec.CScalar
import Verif.Spec.CSign
import Verif.Spec.Chain
import Verif.Spec.Codegen
import Verif.Spec.CoinText
import Verif.Spec.Coins
import Verif.Spec.Curve
import Verif.Spec.Decoder
import Verif.Spec.Ecdsa
import Verif.Spec.Files
import Verif.Spec.GenFiles
import Verif.Spec.Genesis
import Verif.Spec.GoCode
import Verif.Spec.History
import Verif.Spec.Http
import Verif.Spec.HttpRequest
import Verif.Spec.KeyText
import Verif.Spec.Machine
import Verif.Spec.MapStore
import Verif.Spec.Nist
import Verif.Spec.Objects
import Verif.Spec.OpenApi
import Verif.Spec.Rbac
import Verif.Spec.Recorded
import Verif.Spec.Rfc6979
import Verif.Spec.Runtime
import Verif.Spec.Safe
import Verif.Spec.Sample
import Verif.Spec.SampleApp
import Verif.Spec.SampleTx
import Verif.Spec.Schema
import Verif.Spec.SdkCoins
import Verif.Spec.Spare
import Verif.Spec.Stages
import Verif.Spec.TestApp
import Verif.Spec.Text
import Verif.Spec.Toy
import Verif.Spec.Whole
import Verif.Proofs.Accept
import Verif.Proofs.AppCalls
import Verif.Proofs.AppFacts
import Verif.Proofs.AppInv
import Verif.Proofs.AppReach
import Verif.Proofs.AppRun
import Verif.Proofs.AppServed
import Verif.Proofs.AppTx
import Verif.Proofs.Bech32
import Verif.Proofs.Bytes
import Verif.Proofs.CBlind
import Verif.Proofs.CEcdsa
import Verif.Proofs.CEcmult
import Verif.Proofs.CField
import Verif.Proofs.CFieldMore
import Verif.Proofs.CGen
import Verif.Proofs.CGroup
import Verif.Proofs.CGroupMore
import Verif.Proofs.CHash
import Verif.Proofs.CMult
import Verif.Proofs.CMultMore
import Verif.Proofs.CProduct
import Verif.Proofs.CProductMore
import Verif.Proofs.CScalar
import Verif.Proofs.CSign
import Verif.Proofs.CWnaf
import Verif.Proofs.Codegen
import Verif.Proofs.CodegenNames
import Verif.Proofs.Coins
import Verif.Proofs.Curve
import Verif.Proofs.Decoder
import Verif.Proofs.Deliver
import Verif.Proofs.Ecdsa
import Verif.Proofs.Exec
import Verif.Proofs.Fuel
import Verif.Proofs.Genesis
import Verif.Proofs.Holders
import Verif.Proofs.Index
import Verif.Proofs.Kind
import Verif.Proofs.Nist
import Verif.Proofs.ORM
import Verif.Proofs.ORMFacts
import Verif.Proofs.ORMList
import Verif.Proofs.ORMOps
import Verif.Proofs.OpenApi
import Verif.Proofs.OpenApiDoc
import Verif.Proofs.OpenApiOrder
import Verif.Proofs.Primes
import Verif.Proofs.Proto
import Verif.Proofs.Protos
import Verif.Proofs.ProtosOk
import Verif.Proofs.Rbac
import Verif.Proofs.Runtime
import Verif.Proofs.Safe
import Verif.Proofs.Sample
import Verif.Proofs.SampleApp
import Verif.Proofs.SdkCoins
import Verif.Proofs.Sign
import Verif.Proofs.Sim
import Verif.Proofs.Supply
import Verif.Proofs.TestApp
import Verif.Proofs.Transfers
import Verif.Props.Accounts
import Verif.Props.Bank
import Verif.Props.Builder
import Verif.Props.CBuilds
import Verif.Props.CEcdsa
import Verif.Props.CField
import Verif.Props.CGen
import Verif.Props.CGroup
import Verif.Props.CHash
import Verif.Props.CMult
import Verif.Props.CProduct
import Verif.Props.CScalar
import Verif.Props.CSign
import Verif.Props.Calls
import Verif.Props.Chain
import Verif.Props.Client
import Verif.Props.Codec
import Verif.Props.Codegen
import Verif.Props.CoinText
import Verif.Props.Conv
import Verif.Props.Curve
import Verif.Props.Decoder
import Verif.Props.Ecdsa
import Verif.Props.Files
import Verif.Props.GoCode
import Verif.Props.Http
import Verif.Props.HttpRequest
import Verif.Props.KeyText
import Verif.Props.Nist
import Verif.Props.ORM
import Verif.Props.OpenApi
import Verif.Props.OpenApiApp
import Verif.Props.Points
import Verif.Props.Rbac
import Verif.Props.RealApp
import Verif.Props.Recorded
import Verif.Props.Runtime
import Verif.Props.Safe
import Verif.Props.SdkCoins
import Verif.Props.Secp
import Verif.Props.Sign
import Verif.Props.Small
import Verif.Props.Spare
import Verif.Props.TestModule
import Verif.Props.Whole
