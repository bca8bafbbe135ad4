import Verif.Basic
import Verif.IndexMap
import Verif.Base64
import Verif.Url
import Verif.Sfv.Types
import Verif.Sfv.Serialize
import Verif.Sfv.Parse
import Verif.Model.Reqwest
import Verif.Model.Cli
import Verif.Lemmas.CanonInj
import Verif.Props.RoundTrip
import Verif.Props.Base
import Verif.Props.Tamper
import Verif.Props.Config
import Verif.Props.Builder
import Verif.Props.Repeat
import Verif.Props.Algo
import Verif.Props.EndToEnd
import Verif.Props.Derive
import Verif.Props.Order
import Verif.Props.Required
import Verif.Props.Cli
import Verif.Props.Pipeline
import Verif.Props.Delivery
import Verif.Vectors.Repo
import Verif.Vectors.Openssl
import Verif.Props.Injection
import Verif.Props.KeyFiles
import Verif.Model.Main
import Verif.Props.RequestFile
import Verif.Props.Main
import Verif.Props.Refused
import Verif.Spec.Grammar
import Verif.Lemmas.Base64Text
import Verif.Lemmas.Grammar
import Verif.Lemmas.Grammar2
import Verif.Props.Grammar
import Verif.Spec.Confusable
import Verif.Spec.Forgery
import Verif.Lemmas.BaseExact
import Verif.Props.BaseExact
import Verif.Props.Forgery
import Verif.Spec.UrlRequest
import Verif.Lemmas.Keyed
import Verif.Lemmas.QueryLength
import Verif.Lemmas.UrlRequest
import Verif.Props.TargetUri
import Verif.Spec.Wire
import Verif.Props.Authority
import Verif.Props.Wire
import Verif.Props.KeyPairs
import Verif.Props.MockBuild
import Verif.Props.Signed
import Verif.Props.Monotone
import Verif.Spec.Draft
import Verif.Props.Draft
import Verif.Props.DraftSign
import Verif.Props.DraftVerify
import Verif.Props.Unsigned
import Verif.Props.Exact
import Verif.Props.OrderExact
import Verif.Props.Shift
import Verif.Props.Contracts
import Verif.Props.Names
import Verif.Props.Text
import Verif.Props.Component
import Verif.Props.InputData
import Verif.Props.Rewriting
import Verif.Props.Outcome
import Verif.Props.Rejected
import Verif.Props.BuiltIn
import Verif.Props.Logging
import Verif.Props.Trace
import Verif.Props.Accept
import Verif.Props.SelfCover
import Verif.Props.Process
import Verif.Props.UrlParse
import Verif.Props.MainLog
import Verif.Props.Debug
import Verif.Props.Status
import Verif.Props.UrlHost
import Verif.Props.Size
import Verif.Props.ConstantTime
import Verif.Props.History
import Verif.Props.Policy
import Verif.Props.Calls
import Verif.Props.SignCalls
import Verif.Props.Readme
import Verif.Props.Argv
import Verif.Props.Hmac
import Verif.Props.Rsa
import Verif.Props.Pss
import Verif.Props.Ecdsa
import Verif.Props.EcPkcs8
import Verif.Props.RsaPublic
import Verif.Props.SignFail
import Verif.Props.BackEnds
import Verif.Props.RsaPkcs8
import Verif.Props.RsaReadme
import Verif.Vectors.RsaPkcs8
import Verif.Props.OsslRsa
import Verif.Vectors.OsslRsa
import Verif.Props.OsslFiles
