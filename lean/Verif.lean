import Verif.Audit
import Verif.Model.Action
import Verif.Model.Auth
import Verif.Model.AuthLayout
import Verif.Model.Basic
import Verif.Model.Classify
import Verif.Model.Cli
import Verif.Model.Client
import Verif.Model.Close
import Verif.Model.Cpi
import Verif.Model.Curated
import Verif.Model.Errors
import Verif.Model.Keys
import Verif.Model.Limits
import Verif.Model.Manage
import Verif.Model.Process
import Verif.Model.Records
import Verif.Model.Runtime
import Verif.Model.SdkClient
import Verif.Model.SdkTypes
import Verif.Model.SdkWallet
import Verif.Model.Sign
import Verif.Model.SubV1
import Verif.Model.SubV2
import Verif.Model.Swig
import Verif.Model.Tail
import Verif.Model.Update
import Verif.Model.WebAuthn
import Verif.Model.World
import Verif.Proofs.Accept
import Verif.Proofs.AcceptFull
import Verif.Proofs.AcceptSettle
import Verif.Proofs.AcceptSign
import Verif.Proofs.AcceptSub
import Verif.Proofs.AcceptTokens
import Verif.Proofs.AcceptWhole
import Verif.Proofs.Actions
import Verif.Proofs.Auth
import Verif.Proofs.Authn
import Verif.Proofs.Batch
import Verif.Proofs.Bytes
import Verif.Proofs.Charges
import Verif.Proofs.ChargesRec
import Verif.Proofs.Classify
import Verif.Proofs.Cli
import Verif.Proofs.Client
import Verif.Proofs.ClientActions
import Verif.Proofs.ClientBuild
import Verif.Proofs.ClientInj
import Verif.Proofs.ClientMore
import Verif.Proofs.Close
import Verif.Proofs.Compact
import Verif.Proofs.Contain
import Verif.Proofs.CredHandlers
import Verif.Proofs.Exact
import Verif.Proofs.Fields
import Verif.Proofs.Frame
import Verif.Proofs.FrameLamports
import Verif.Proofs.Gross
import Verif.Proofs.Handlers
import Verif.Proofs.History
import Verif.Proofs.Lawful
import Verif.Proofs.Layout
import Verif.Proofs.Lifetime
import Verif.Proofs.LifetimeMore
import Verif.Proofs.Limits
import Verif.Proofs.Live
import Verif.Proofs.LiveAllowed
import Verif.Proofs.LiveClose
import Verif.Proofs.LiveCreate
import Verif.Proofs.LiveLimited
import Verif.Proofs.LiveRestricted
import Verif.Proofs.LiveSettle
import Verif.Proofs.LiveSign
import Verif.Proofs.LiveSub
import Verif.Proofs.Manage
import Verif.Proofs.MemoryAuth
import Verif.Proofs.MemoryRoles
import Verif.Proofs.MemorySign
import Verif.Proofs.MemorySub
import Verif.Proofs.More
import Verif.Proofs.Moves
import Verif.Proofs.NewCred
import Verif.Proofs.OneRequest
import Verif.Proofs.Ops
import Verif.Proofs.Order
import Verif.Proofs.PutAct
import Verif.Proofs.Refill
import Verif.Proofs.Rent
import Verif.Proofs.ReplaceHandler
import Verif.Proofs.Requests
import Verif.Proofs.Roles
import Verif.Proofs.RolesRemove
import Verif.Proofs.RolesUpdate
import Verif.Proofs.Safe
import Verif.Proofs.Scope
import Verif.Proofs.SdkClient
import Verif.Proofs.SdkCounter
import Verif.Proofs.SdkLookup
import Verif.Proofs.SdkTypes
import Verif.Proofs.Settle
import Verif.Proofs.SettleAll
import Verif.Proofs.SignOut
import Verif.Proofs.SignState
import Verif.Proofs.SignV2
import Verif.Proofs.Stake
import Verif.Proofs.Sub
import Verif.Proofs.Submit
import Verif.Proofs.Surplus
import Verif.Proofs.SurplusSign
import Verif.Proofs.Sysvar
import Verif.Proofs.Timeless
import Verif.Proofs.Total
import Verif.Proofs.Touch
import Verif.Proofs.Tracked
import Verif.Proofs.UpdateHandler
import Verif.Proofs.Utf8
import Verif.Proofs.Wait
import Verif.Props.Accept
import Verif.Props.AcceptCred
import Verif.Props.AcceptFull
import Verif.Props.AcceptSign
import Verif.Props.AcceptSub
import Verif.Props.Allowed
import Verif.Props.Approve
import Verif.Props.Auth
import Verif.Props.Batch
import Verif.Props.Cli
import Verif.Props.CliKeys
import Verif.Props.Client
import Verif.Props.ClientMore
import Verif.Props.ClientRefused
import Verif.Props.Close
import Verif.Props.Compact
import Verif.Props.Contain
import Verif.Props.Curated
import Verif.Props.Exact
import Verif.Props.Fields
import Verif.Props.Gift
import Verif.Props.History
import Verif.Props.Isolation
import Verif.Props.Lawful
import Verif.Props.Lifetime
import Verif.Props.LifetimeMore
import Verif.Props.Limits
import Verif.Props.Manage
import Verif.Props.Manager
import Verif.Props.Memory
import Verif.Props.More
import Verif.Props.Moves
import Verif.Props.OneRequest
import Verif.Props.Order
import Verif.Props.Passkey
import Verif.Props.Prefund
import Verif.Props.Recover
import Verif.Props.Refill
import Verif.Props.Rent
import Verif.Props.Roles
import Verif.Props.Scope
import Verif.Props.Sdk
import Verif.Props.SdkAsk
import Verif.Props.SdkCounter
import Verif.Props.SdkLookup
import Verif.Props.SdkSend
import Verif.Props.Sessions
import Verif.Props.Sign
import Verif.Props.SignCalls
import Verif.Props.SignTokens
import Verif.Props.Signed
import Verif.Props.Stake
import Verif.Props.Strand
import Verif.Props.Stuck
import Verif.Props.Sub
import Verif.Props.Surplus
import Verif.Props.SurplusSign
import Verif.Props.SurplusWithdraw
import Verif.Props.Text
import Verif.Props.Timeless
import Verif.Props.Total
import Verif.Props.Touch
import Verif.Props.Twin
import Verif.Props.Wait
import Verif.Props.WebAuthn
import Verif.Spec.Accept
import Verif.Spec.AcceptFull
import Verif.Spec.AcceptSign
import Verif.Spec.AcceptSub
import Verif.Spec.Allowed
import Verif.Spec.Auth
import Verif.Spec.Authn
import Verif.Spec.Base58
import Verif.Spec.Batch
import Verif.Spec.Calls
import Verif.Spec.Charges
import Verif.Spec.Cli
import Verif.Spec.Client
import Verif.Spec.Compact
import Verif.Spec.Contain
import Verif.Spec.Evolve
import Verif.Spec.Exact
import Verif.Spec.History
import Verif.Spec.Json
import Verif.Spec.Lawful
import Verif.Spec.Layout
import Verif.Spec.Lifetime
import Verif.Spec.LifetimeMore
import Verif.Spec.Memory
import Verif.Spec.More
import Verif.Spec.OneRequest
import Verif.Spec.Ops
import Verif.Spec.Order
import Verif.Spec.Passkey
import Verif.Spec.Rent
import Verif.Spec.Requests
import Verif.Spec.Sample
import Verif.Spec.SampleClient
import Verif.Spec.SampleCpi
import Verif.Spec.SampleSdk
import Verif.Spec.SampleSign
import Verif.Spec.SampleStake
import Verif.Spec.SampleTwo
import Verif.Spec.Scope
import Verif.Spec.Sdk
import Verif.Spec.SdkClient
import Verif.Spec.SdkRuns
import Verif.Spec.SdkSend
import Verif.Spec.Sign
import Verif.Spec.Signed
import Verif.Spec.Stake
import Verif.Spec.Surplus
import Verif.Spec.Text
import Verif.Spec.Total
import Verif.Spec.Touch
import Verif.Spec.Update
import Verif.Spec.Wait
import Verif.Spec.Wallet
