import Verif.Model.Provider
import Verif.Props.Eth
import Verif.Props.Message
import Verif.Props.Settings
import Verif.Props.Encoding
import Verif.Props.Identity
import Verif.Props.SigMap
import Verif.Props.Login
import Verif.Props.Sessions
import Verif.Props.Nonces
import Verif.Props.Apps
import Verif.Props.Signatures
import Verif.Props.GrowthBound
import Verif.Props.LoginHistory
import Verif.Props.Delegations
import Verif.Props.Certificates
import Verif.Props.CertificatesExact
import Verif.Props.Mappings
import Verif.Props.Upgrades
import Verif.Props.Growth
import Verif.Props.EndToEnd
import Verif.Props.Eip4361
import Verif.Props.Client
import Verif.Props.ClientExact
import Verif.Props.ClientMore
import Verif.Props.ErrorText
import Verif.Props.Salt
import Verif.Props.Wrappers
import Verif.Props.TestCanister
import Verif.Props.MappingAnswers
import Verif.Props.Settles
import Verif.Props.Busy
import Verif.Props.Tabs
import Verif.Props.Expiry
import Verif.Props.Interface
import Verif.Model.ErrorText
import Verif.Conformance.Integration
import Verif.Props.Requests
import Verif.Props.Managers
import Verif.Props.Json
import Verif.Conformance.Json
import Verif.Props.Embedding
import Verif.Props.Machine
import Verif.Props.Url
import Verif.Props.UrlPanic
import Verif.Props.UrlExact
import Verif.Props.Rfc3986
import Verif.Props.Cells
import Verif.Props.Limits
import Verif.Props.Wallet
import Verif.Props.Targets
import Verif.Props.SessionKeys
import Verif.Props.Hosts
import Verif.Props.Reload
import Verif.Props.Wire
import Verif.Props.Texts
import Verif.Props.StableMaps
import Verif.Props.StableGrowth
import Verif.Props.StableMemory
import Verif.Props.Builder
import Verif.Props.Startup
import Verif.Props.Capacity
import Verif.Props.Account
import Verif.Props.Guess
import Verif.Props.Own
import Verif.Props.Deployed
import Verif.Props.Moments
import Verif.Lemmas.Given
import Verif.Props.Lag
import Verif.Props.App
import Verif.Spec.Binding
import Verif.Props.Binding
import Verif.Spec.SignOut
import Verif.Props.SignOut
import Verif.Spec.Sites
import Verif.Props.Sites
import Verif.Model.Certifying
import Verif.Spec.Certifying
import Verif.Props.Certifying
import Verif.Spec.StoredJson
import Verif.Props.StoredJson
import Verif.Model.Canisters
import Verif.Spec.Canisters
import Verif.Props.Canisters
import Verif.Spec.Birthday
import Verif.Props.Birthday
import Verif.Spec.Stale
import Verif.Lemmas.Stale
import Verif.Props.Stale
import Verif.Props.Prepared
import Verif.Spec.OneAddress
import Verif.Props.OneAddress
import Verif.Spec.Reconfigured
import Verif.Props.Reconfigured
import Verif.Spec.IcLimits
import Verif.Props.IcLimits
import Verif.Spec.Disclosure
import Verif.Props.Disclosure
import Verif.Spec.PrincipalKinds
import Verif.Props.PrincipalKinds
import Verif.Spec.HashOrder
import Verif.Props.HashOrder
import Verif.Props.ReplySizes
import Verif.Props.TextUnique
import Verif.Props.HashOrderApp
import Verif.Spec.MappingFeatures
import Verif.Props.MappingFeatures
import Verif.Spec.SessionSettings
import Verif.Props.SessionSettings
import Verif.Model.ByteArrays
import Verif.Spec.ByteArrays
import Verif.Props.ByteArrays
import Verif.Props.AppsSettings
import Verif.Model.Thrown
import Verif.Spec.Thrown
import Verif.Props.Thrown
import Verif.Model.Actor
import Verif.Spec.Actor
import Verif.Props.Actor
import Verif.Spec.Wording
import Verif.Props.Wording
import Verif.Spec.SignInTime
import Verif.Props.SignInTime
