import Verif.Base.Exc
import Verif.Base.Dict
import Verif.Base.Str
import Verif.Model.Util
import Verif.Base.Json
import Verif.Model.Token
import Verif.Model.Grant
import Verif.Spec.Encoding
import Verif.Lemmas.Encoding
import Verif.Props.Encoding
import Verif.Model.TokenEndpoint
import Verif.Spec.Token
import Verif.Lemmas.Token
import Verif.Props.Token
import Verif.Model.Database
import Verif.Model.Manager
import Verif.Spec.Session
import Verif.Lemmas.Database
import Verif.Lemmas.Session
import Verif.Props.Session
import Verif.Model.Authz
import Verif.Model.World
import Verif.Lemmas.Micro
import Verif.Lemmas.World
import Verif.Lemmas.Steps
import Verif.Spec.World
import Verif.Lemmas.Events
import Verif.Lemmas.ExEnv
import Verif.Model.Threads
import Verif.Props.World
import Verif.Props.WorldExamples
import Verif.Props.Threads
import Verif.Spec.Isolation
import Verif.Lemmas.Isolation
import Verif.Props.Isolation
import Verif.Lemmas.Origins
import Verif.Model.Pkce
import Verif.Spec.Pkce
import Verif.Props.Pkce
import Verif.Props.PkceExamples
import Verif.Base.JsonCode
import Verif.Model.TokenHandler
import Verif.Spec.TokenHandler
import Verif.Props.TokenHandler
import Verif.Props.TokenHandlerExamples
import Verif.Model.Uri
import Verif.Spec.Uri
import Verif.Lemmas.Split
import Verif.Props.Uri
import Verif.Model.Response
import Verif.Props.Response
import Verif.Props.FormPost
import Verif.Lemmas.GrantScope
import Verif.Model.Scopes
import Verif.Spec.Scopes
import Verif.Props.Scopes
import Verif.Model.Login
import Verif.Spec.Login
import Verif.Lemmas.Login
import Verif.Props.Login
import Verif.Model.Provider
import Verif.Spec.Provider
import Verif.Lemmas.GrantKeys
import Verif.Lemmas.Gates
import Verif.Lemmas.Provider
import Verif.Props.Provider
import Verif.Props.ProviderExamples
import Verif.Base.PyEq
import Verif.Model.Claims
import Verif.Spec.Claims
import Verif.Props.Claims
import Verif.Props.ClaimSources
import Verif.Model.Resource
import Verif.Spec.Resource
import Verif.Props.Resource
import Verif.Props.ResourceExamples
import Verif.Model.Payload
import Verif.Spec.Payload
import Verif.Props.Payload
import Verif.Props.PayloadExamples
import Verif.Model.ClientAuthn
import Verif.Spec.ClientAuthn
import Verif.Props.ClientAuthn
import Verif.Props.ClientAuthnExamples
import Verif.Model.Registration
import Verif.Spec.Registration
import Verif.Lemmas.Registration
import Verif.Props.Registration
import Verif.Props.RegistrationExamples
import Verif.Model.Cookie
import Verif.Spec.Cookie
import Verif.Props.Cookie
import Verif.Props.CookieExamples
import Verif.Model.UsageState
import Verif.Spec.UsageRules
import Verif.Props.UsageRules
import Verif.Model.Subject
import Verif.Spec.Subject
import Verif.Props.Subject
import Verif.Model.Construct
import Verif.Spec.Construct
import Verif.Props.Construct
import Verif.Lemmas.TokenHome
import Verif.Props.TokenHome
import Verif.Model.Logout
import Verif.Spec.Logout
import Verif.Lemmas.Logout
import Verif.Props.Logout
import Verif.Props.LogoutExamples
import Verif.Model.Parts
import Verif.Spec.Parts
import Verif.Lemmas.Parts
import Verif.Props.Parts
import Verif.Spec.LifeTime
import Verif.Props.LifeTime
import Verif.Spec.MaxUsage
import Verif.Props.MaxUsage
import Verif.Model.UserAuthn
import Verif.Spec.UserAuthn
import Verif.Props.UserAuthn
import Verif.Spec.RefreshIssue
import Verif.Props.RefreshIssue
import Verif.Props.RegistrationAnswer
import Verif.Spec.LoginLife
import Verif.Props.LoginLife
import Verif.Props.Management
import Verif.Model.Dpop
import Verif.Spec.Dpop
import Verif.Lemmas.Dpop
import Verif.Props.Dpop
import Verif.Model.RequestObject
import Verif.Spec.RequestObject
import Verif.Lemmas.RequestObject
import Verif.Props.RequestObject
import Verif.Lemmas.Ended
import Verif.Props.Ended
import Verif.Model.TokenCookie
import Verif.Spec.SessionCookie
import Verif.Props.SessionCookie
import Verif.Model.Restart
import Verif.Spec.Restart
import Verif.Lemmas.GrantId
import Verif.Lemmas.Bare
import Verif.Lemmas.Restart
import Verif.Props.Restart
import Verif.Model.Algs
import Verif.Spec.Algs
import Verif.Props.Algs
import Verif.Model.TokenHttp
import Verif.Spec.TokenHttp
import Verif.Props.TokenHttp
import Verif.Model.RegisteredAuth
import Verif.Spec.RegisteredAuth
import Verif.Props.RegisteredAuth
import Verif.Model.ResourceHttp
import Verif.Spec.ResourceHttp
import Verif.Props.ResourceHttp
import Verif.Model.Delivery
import Verif.Spec.Delivery
import Verif.Props.Delivery
import Verif.Props.ProviderWorld
import Verif.Props.SignedTime
import Verif.Model.Depth
import Verif.Spec.Depth
import Verif.Spec.Honoured
import Verif.Lemmas.Honoured
import Verif.Lemmas.Depth
import Verif.Props.Honoured
import Verif.Props.Depth
import Verif.Model.Metadata
import Verif.Spec.Metadata
import Verif.Lemmas.Metadata
import Verif.Props.Metadata
import Verif.Model.EndpointAuth
import Verif.Spec.EndpointAuth
import Verif.Props.EndpointAuth
import Verif.Model.GrantTypes
import Verif.Spec.GrantTypes
import Verif.Props.GrantTypes
import Verif.Model.Configure
import Verif.Spec.Configure
import Verif.Props.Configure
import Verif.Lemmas.GrantRules
import Verif.Spec.UsageCfg
import Verif.Props.UsageCfg
import Verif.Props.MetadataAddOns
import Verif.Model.Respond
import Verif.Spec.Respond
import Verif.Props.Respond
import Verif.Model.LogoutHttp
import Verif.Props.LogoutHttp
import Verif.Model.Hints
import Verif.Spec.Hints
import Verif.Props.Hints
import Verif.Model.TokenFactory
import Verif.Spec.TokenFactory
import Verif.Props.TokenFactory
import Verif.Props.TokenFactoryExamples
import Verif.Spec.Answered
import Verif.Props.Answered
import Verif.Model.CookieFlags
import Verif.Spec.Browser
import Verif.Props.CookieFlags
import Verif.Model.Broker
import Verif.Spec.Broker
import Verif.Props.Broker
import Verif.Model.ExtraArgs
import Verif.Spec.ExtraArgs
import Verif.Props.ExtraArgs
import Verif.Model.LoginPage
import Verif.Spec.LoginPage
import Verif.Props.LoginPage
import Verif.Spec.RegistrationDecision
import Verif.Lemmas.RegistrationDecision
import Verif.Props.RegistrationDecision
import Verif.Spec.LogoutNotice
import Verif.Props.LogoutNotice
import Verif.Props.GrantClaims
import Verif.Props.AssertionUse
import Verif.Props.PushedWorks
import Verif.Spec.TokenClaims
import Verif.Props.TokenClaims
import Verif.Props.PasswordWorks
import Verif.Props.EndpointInfo
import Verif.Spec.EndpointInfo
import Verif.Model.SymKey
import Verif.Spec.SymKey
import Verif.Props.SymKey
import Verif.Model.Startup
import Verif.Spec.Startup
import Verif.Lemmas.Startup
import Verif.Props.Startup
import Verif.Model.Queries
import Verif.Spec.Queries
import Verif.Lemmas.Queries
import Verif.Props.Queries
import Verif.Spec.ClientIsolation
import Verif.Lemmas.ClientIsolation
import Verif.Props.ClientIsolation
import Verif.Spec.SingleSignOn
import Verif.Props.SingleSignOn
import Verif.Spec.CodeFlow
import Verif.Lemmas.Flow
import Verif.Props.CodeFlow
import Verif.Props.HybridFlow
import Verif.Props.DpopResource
import Verif.Props.InOrder
import Verif.Spec.InOrder
import Verif.Props.Staying
import Verif.Props.Concurrent
import Verif.Props.Making
import Verif.Spec.Staying
import Verif.Model.Ending
import Verif.Spec.Ending
import Verif.Props.Ending
import Verif.Props.EndingOthers
import Verif.Model.TokenSession
import Verif.Props.Kinds
import Verif.Props.EndingFine
import Verif.Props.Replay
import Verif.Model.RefreshThreads
import Verif.Spec.RefreshThreads
import Verif.Props.RefreshThreads
import Verif.Props.Named
import Verif.Props.StartAddOns
import Verif.Props.ReplayRefresh
import Verif.Spec.Refused
import Verif.Props.SpentThreads
import Verif.Model.AllThreads
import Verif.Props.AllThreads
import Verif.Model.MintParts
import Verif.Props.MintParts
