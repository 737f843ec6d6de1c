import Verif.Lemmas.Arrive
import Verif.Lemmas.Base64
import Verif.Lemmas.Calendar
import Verif.Lemmas.Callbacks
import Verif.Lemmas.Changes
import Verif.Lemmas.Clash
import Verif.Lemmas.Client
import Verif.Lemmas.Conversation
import Verif.Lemmas.Convey
import Verif.Lemmas.Cron
import Verif.Lemmas.DateTime
import Verif.Lemmas.Dict
import Verif.Lemmas.Duration
import Verif.Lemmas.Emix
import Verif.Lemmas.EventMessage
import Verif.Lemmas.EventObjects
import Verif.Lemmas.EventParts
import Verif.Lemmas.EventReading
import Verif.Lemmas.EventReady
import Verif.Lemmas.EventTargets
import Verif.Lemmas.EventWire
import Verif.Lemmas.Events
import Verif.Lemmas.Exchange
import Verif.Lemmas.Fields
import Verif.Lemmas.Flow
import Verif.Lemmas.Grow
import Verif.Lemmas.Identifiers
import Verif.Lemmas.Infix
import Verif.Lemmas.Injection
import Verif.Lemmas.KeepsUp
import Verif.Lemmas.Leaves
import Verif.Lemmas.LineEnds
import Verif.Lemmas.Loops
import Verif.Lemmas.Mass
import Verif.Lemmas.Members
import Verif.Lemmas.Offers
import Verif.Lemmas.OptMessage
import Verif.Lemmas.Parts
import Verif.Lemmas.PlainLib
import Verif.Lemmas.PlainTexts
import Verif.Lemmas.Preflight
import Verif.Lemmas.Reads
import Verif.Lemmas.RegisterWire
import Verif.Lemmas.ReportWire
import Verif.Lemmas.Reports
import Verif.Lemmas.SchemaValues
import Verif.Lemmas.Sent
import Verif.Lemmas.Server
import Verif.Lemmas.ServerAgree
import Verif.Lemmas.ServerHistory
import Verif.Lemmas.Shapes
import Verif.Lemmas.Signed
import Verif.Lemmas.Targets
import Verif.Lemmas.Text
import Verif.Lemmas.UniqueDocument
import Verif.Lemmas.ValidItems
import Verif.Lemmas.ValidMessage
import Verif.Lemmas.Values
import Verif.Lemmas.VenAnswers
import Verif.Lemmas.VenEvents
import Verif.Lemmas.VenHistory
import Verif.Lemmas.VenReports
import Verif.Lemmas.VenWaiting
import Verif.Lemmas.Wire
import Verif.Model.Calendar
import Verif.Model.Certificate
import Verif.Model.Client
import Verif.Model.Conversation
import Verif.Model.Cron
import Verif.Model.DateTime
import Verif.Model.Duration
import Verif.Model.Enums
import Verif.Model.EventExchange
import Verif.Model.EventObject
import Verif.Model.Events
import Verif.Model.Exchange
import Verif.Model.Gather
import Verif.Model.Handler
import Verif.Model.Hooks
import Verif.Model.Interleaving
import Verif.Model.Measurements
import Verif.Model.Members
import Verif.Model.Messaging
import Verif.Model.Normalize
import Verif.Model.OptObject
import Verif.Model.Preflight
import Verif.Model.Process
import Verif.Model.RegisterExchange
import Verif.Model.RegistrationService
import Verif.Model.Replay
import Verif.Model.ReportExchange
import Verif.Model.ReportLife
import Verif.Model.Reregistration
import Verif.Model.Sampling
import Verif.Model.Server
import Verif.Model.ServerReports
import Verif.Model.Services
import Verif.Model.SharedReport
import Verif.Model.Signed
import Verif.Model.SlowPoll
import Verif.Model.Template
import Verif.Model.Templates
import Verif.Model.Text
import Verif.Model.VenEvents
import Verif.Model.VenReports
import Verif.Model.VenWaiting
import Verif.Model.Xml
import Verif.Props.AddedRound
import Verif.Props.AnyCallback
import Verif.Props.CancelledDelivery
import Verif.Props.Certificate
import Verif.Props.ClientLife
import Verif.Props.ClientState
import Verif.Props.CreatedReports
import Verif.Props.Deregistration
import Verif.Props.Durations
import Verif.Props.Enums
import Verif.Props.ErrorReplies
import Verif.Props.EventExchange
import Verif.Props.EventMessages
import Verif.Props.EventObject
import Verif.Props.EventRound
import Verif.Props.EventRoundFails
import Verif.Props.Events
import Verif.Props.Exchange
import Verif.Props.Foreign
import Verif.Props.ForeignOffers
import Verif.Props.Gather
import Verif.Props.HandAnswers
import Verif.Props.Handler
import Verif.Props.Hooks
import Verif.Props.Identifiers
import Verif.Props.Interleaving
import Verif.Props.KeepsUp
import Verif.Props.KeepsUpCases
import Verif.Props.LineEnds
import Verif.Props.Markup
import Verif.Props.Measurements
import Verif.Props.Members
import Verif.Props.MessageChanges
import Verif.Props.Messages
import Verif.Props.Missing
import Verif.Props.NeverResolved
import Verif.Props.NeverTold
import Verif.Props.OptMessages
import Verif.Props.OptObject
import Verif.Props.Opts
import Verif.Props.Placeholders
import Verif.Props.PollAnswers
import Verif.Props.PollCancels
import Verif.Props.PollCases
import Verif.Props.PollReports
import Verif.Props.Preflight
import Verif.Props.PreflightMessages
import Verif.Props.Process
import Verif.Props.Reading
import Verif.Props.Recognition
import Verif.Props.Refusals
import Verif.Props.RegisterExchange
import Verif.Props.RegisterOffers
import Verif.Props.Registration
import Verif.Props.RegistrationServer
import Verif.Props.Replay
import Verif.Props.ReportExchange
import Verif.Props.ReportHistory
import Verif.Props.ReportLife
import Verif.Props.ReportMessages
import Verif.Props.ReportsEndToEnd
import Verif.Props.Reregistration
import Verif.Props.Sampling
import Verif.Props.Schedules
import Verif.Props.Schema
import Verif.Props.SchemaInvalid
import Verif.Props.SchemaRefused
import Verif.Props.SchemaValid
import Verif.Props.SchemaValidEvents
import Verif.Props.SchemaValidQueued
import Verif.Props.SchemaValidReports
import Verif.Props.SentMessages
import Verif.Props.SerialReport
import Verif.Props.ServerAdd
import Verif.Props.ServerHistory
import Verif.Props.ServerReports
import Verif.Props.ServerResponses
import Verif.Props.Services
import Verif.Props.SharedReport
import Verif.Props.Signed
import Verif.Props.SlowCallbacks
import Verif.Props.SlowHistory
import Verif.Props.SlowPoll
import Verif.Props.SyncCases
import Verif.Props.SyncEvents
import Verif.Props.SyncForgotten
import Verif.Props.Texts
import Verif.Props.Timestamps
import Verif.Props.ToldOnce
import Verif.Props.UnknownEvent
import Verif.Props.ValidCases
import Verif.Props.VenAnswers
import Verif.Props.VenCancel
import Verif.Props.VenEvents
import Verif.Props.VenOffers
import Verif.Props.VenRequests
import Verif.Props.VenSampling
import Verif.Props.VenWaiting
import Verif.Py.Basic
import Verif.Py.Sort
import Verif.Py.Value
import Verif.Spec.Allowed
import Verif.Spec.Base64
import Verif.Spec.Changes
import Verif.Spec.Client
import Verif.Spec.Cron
import Verif.Spec.DateTime
import Verif.Spec.Duration
import Verif.Spec.Enumerations
import Verif.Spec.EventPayloads
import Verif.Spec.Events
import Verif.Spec.Identifiers
import Verif.Spec.Markup
import Verif.Spec.Members
import Verif.Spec.OptPayloads
import Verif.Spec.Payloads
import Verif.Spec.Preflight
import Verif.Spec.Reading
import Verif.Spec.Schema
import Verif.Spec.SchemaValid
import Verif.Spec.Server
import Verif.Spec.Text
import Verif.Spec.Wire
import Verif.Spec.Xsd
import Verif.Spec.XsdMessages
