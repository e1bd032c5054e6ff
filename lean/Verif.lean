import Verif.Basic
import Verif.Conformance.CommandComplete
import Verif.Conformance.Docs
import Verif.Conformance.Events
import Verif.Conformance.Host
import Verif.Conformance.Types
import Verif.Lemmas.Acceptable
import Verif.Lemmas.Account
import Verif.Lemmas.AdvReports
import Verif.Lemmas.Askable
import Verif.Lemmas.Buffer
import Verif.Lemmas.Bytes
import Verif.Lemmas.Canonical
import Verif.Lemmas.CommandComplete
import Verif.Lemmas.Commands
import Verif.Lemmas.Consulted
import Verif.Lemmas.Debug
import Verif.Lemmas.Dialogue
import Verif.Lemmas.Echo
import Verif.Lemmas.Errors
import Verif.Lemmas.EventFields
import Verif.Lemmas.EventParsers
import Verif.Lemmas.Events
import Verif.Lemmas.Exec
import Verif.Lemmas.FirstFault
import Verif.Lemmas.FixedReturns
import Verif.Lemmas.FlagNames
import Verif.Lemmas.FlagTables
import Verif.Lemmas.Flags
import Verif.Lemmas.Forever
import Verif.Lemmas.Forgets
import Verif.Lemmas.Histories
import Verif.Lemmas.Ledger
import Verif.Lemmas.Legible
import Verif.Lemmas.LegibleEvents
import Verif.Lemmas.LegibleHost
import Verif.Lemmas.LegibleResults
import Verif.Lemmas.Negotiated
import Verif.Lemmas.Play
import Verif.Lemmas.Renegotiation
import Verif.Lemmas.ReportHelper
import Verif.Lemmas.Res
import Verif.Lemmas.ReturnParsers
import Verif.Lemmas.Returns
import Verif.Lemmas.Sessions
import Verif.Lemmas.Settings
import Verif.Lemmas.StandardEvents
import Verif.Lemmas.StandardReports
import Verif.Lemmas.Status
import Verif.Lemmas.Streams
import Verif.Lemmas.Target
import Verif.Lemmas.Types
import Verif.Lemmas.ValidEvents
import Verif.Lemmas.VarEvents
import Verif.Lemmas.Vendors
import Verif.Lemmas.Waiting
import Verif.Model.BitflagArray
import Verif.Model.Controller
import Verif.Model.Debug
import Verif.Model.DebugEvent
import Verif.Model.DebugHost
import Verif.Model.DocExample
import Verif.Model.Duration
import Verif.Model.Event.AdvReport
import Verif.Model.Event.Base
import Verif.Model.Event.Command
import Verif.Model.Event.Event
import Verif.Model.Flags
import Verif.Model.Host.Commands
import Verif.Model.Host.Header
import Verif.Model.Host.Params
import Verif.Model.Host.Read
import Verif.Model.Opcode
import Verif.Model.Release
import Verif.Model.Status
import Verif.Model.Target
import Verif.Model.Types.Advertisement
import Verif.Model.Types.AdvertisingInterval
import Verif.Model.Types.CommonDataType
import Verif.Model.Types.ConnectionInterval
import Verif.Model.Types.ExpectedConnectionLength
import Verif.Model.Types.ScanWindow
import Verif.Props.Acceptable
import Verif.Props.Account
import Verif.Props.Address
import Verif.Props.Advertised
import Verif.Props.Advertisement
import Verif.Props.Air
import Verif.Props.Allowed
import Verif.Props.Answers
import Verif.Props.AnyController
import Verif.Props.Askable
import Verif.Props.Buffer
import Verif.Props.CatchUp
import Verif.Props.CommandArgs
import Verif.Props.Commands
import Verif.Props.CommonDataType
import Verif.Props.Config
import Verif.Props.ConnectionInterval
import Verif.Props.Consulted
import Verif.Props.Credits
import Verif.Props.CreditsForever
import Verif.Props.CreditsWire
import Verif.Props.CreditsWireForever
import Verif.Props.Damage
import Verif.Props.Debug
import Verif.Props.Device
import Verif.Props.Dialogue
import Verif.Props.DocExample
import Verif.Props.Echo
import Verif.Props.Errors
import Verif.Props.EventLink
import Verif.Props.Events
import Verif.Props.FirstFault
import Verif.Props.Flags
import Verif.Props.Forever
import Verif.Props.Forgets
import Verif.Props.Interchangeable
import Verif.Props.IntervalBytes
import Verif.Props.Iterators
import Verif.Props.Keys
import Verif.Props.Ledger
import Verif.Props.Log
import Verif.Props.LogCommands
import Verif.Props.Lossless
import Verif.Props.Lost
import Verif.Props.Masks
import Verif.Props.Mixed
import Verif.Props.Negotiated
import Verif.Props.Opcode
import Verif.Props.Pair
import Verif.Props.Peers
import Verif.Props.Procedures
import Verif.Props.Release
import Verif.Props.Renegotiation
import Verif.Props.Reports
import Verif.Props.Returns
import Verif.Props.Secrecy
import Verif.Props.Secrets
import Verif.Props.SecretsForever
import Verif.Props.SecretsSettle
import Verif.Props.Sessions
import Verif.Props.Settings
import Verif.Props.Silence
import Verif.Props.Sizes
import Verif.Props.Standard
import Verif.Props.StandardDialogue
import Verif.Props.StandardEvents
import Verif.Props.StandardReports
import Verif.Props.Status
import Verif.Props.Streams
import Verif.Props.Target
import Verif.Props.Transcripts
import Verif.Props.Transports
import Verif.Props.ValidEvents
import Verif.Props.Vendors
import Verif.Props.Waiting
import Verif.Props.WaitingLive
import Verif.Props.Wanted
import Verif.Props.Wholes
import Verif.Props.WholesForever
import Verif.Props.Windows
import Verif.Spec.Acceptable
import Verif.Spec.Account
import Verif.Spec.Address
import Verif.Spec.Advertisement
import Verif.Spec.Air
import Verif.Spec.Allowed
import Verif.Spec.Answers
import Verif.Spec.Askable
import Verif.Spec.Buffer
import Verif.Spec.Bytes
import Verif.Spec.CommandStream
import Verif.Spec.Commands
import Verif.Spec.CommonDataType
import Verif.Spec.Config
import Verif.Spec.Constructible
import Verif.Spec.Consulted
import Verif.Spec.Controllers
import Verif.Spec.Credits
import Verif.Spec.CreditsForever
import Verif.Spec.CreditsWire
import Verif.Spec.CreditsWireForever
import Verif.Spec.Damage
import Verif.Spec.Demo
import Verif.Spec.Device
import Verif.Spec.Dialogue
import Verif.Spec.Echo
import Verif.Spec.Errors
import Verif.Spec.Events
import Verif.Spec.FlagTables
import Verif.Spec.Flags
import Verif.Spec.Forever
import Verif.Spec.Forgets
import Verif.Spec.Interchangeable
import Verif.Spec.Iterators
import Verif.Spec.Keys
import Verif.Spec.Ledger
import Verif.Spec.Log
import Verif.Spec.Lossless
import Verif.Spec.Lost
import Verif.Spec.Masks
import Verif.Spec.Mixed
import Verif.Spec.Negotiated
import Verif.Spec.Opcode
import Verif.Spec.Pair
import Verif.Spec.Peers
import Verif.Spec.Procedures
import Verif.Spec.Renegotiation
import Verif.Spec.Replies
import Verif.Spec.Secrecy
import Verif.Spec.Secrets
import Verif.Spec.Sessions
import Verif.Spec.Settings
import Verif.Spec.Standard
import Verif.Spec.StandardDialogue
import Verif.Spec.StandardEvents
import Verif.Spec.StandardReports
import Verif.Spec.Status
import Verif.Spec.Streams
import Verif.Spec.Target
import Verif.Spec.Transcripts
import Verif.Spec.Transports
import Verif.Spec.Types
import Verif.Spec.ValidEvents
import Verif.Spec.Vendors
import Verif.Spec.Waiting
import Verif.Spec.Wanted
import Verif.Spec.Wholes
import Verif.Spec.WholesForever
