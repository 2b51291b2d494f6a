import Verif.Access.Model
import Verif.Access.Props
import Verif.Agg.Booking
import Verif.Agg.Books
import Verif.Agg.Causes
import Verif.Agg.CausesRun
import Verif.Agg.ChainLemmas
import Verif.Agg.Examples
import Verif.Agg.Good
import Verif.Agg.GoodSubs
import Verif.Agg.Ids
import Verif.Agg.IdsRun
import Verif.Agg.Kinds
import Verif.Agg.Life
import Verif.Agg.Model
import Verif.Agg.Own
import Verif.Agg.OwnLife
import Verif.Agg.OwnLogic
import Verif.Agg.OwnMir
import Verif.Agg.OwnRef
import Verif.Agg.OwnRun
import Verif.Agg.OwnSys
import Verif.Agg.Prog
import Verif.Agg.PropsAccepted
import Verif.Agg.PropsCauses
import Verif.Agg.PropsComplete
import Verif.Agg.PropsConfirm
import Verif.Agg.PropsCounts
import Verif.Agg.PropsForged
import Verif.Agg.PropsHeld
import Verif.Agg.PropsLabels
import Verif.Agg.PropsLife
import Verif.Agg.PropsOwn
import Verif.Agg.PropsOwner
import Verif.Agg.PropsPlane
import Verif.Agg.PropsQueries
import Verif.Agg.PropsReplyFails
import Verif.Agg.PropsReserve
import Verif.Agg.PropsStatus
import Verif.Agg.PropsTimeout
import Verif.Agg.Queries
import Verif.Agg.ReachLemmas
import Verif.Agg.RecQueries
import Verif.Agg.Rely
import Verif.Agg.Replies
import Verif.Agg.RequestRun
import Verif.Agg.Requests
import Verif.Agg.ReserveReplies
import Verif.Agg.ReserveRun
import Verif.Agg.Returned
import Verif.Agg.Run
import Verif.Agg.SegIds
import Verif.Agg.Serial
import Verif.Agg.Shape
import Verif.Agg.Spec
import Verif.Agg.Tokens
import Verif.Authz.Model
import Verif.Authz.Props
import Verif.Backend.Apart
import Verif.Backend.ApartBoot
import Verif.Backend.ApartOps
import Verif.Backend.ApartPhase
import Verif.Backend.ApartProv
import Verif.Backend.ApartReserve
import Verif.Backend.ApartRun
import Verif.Backend.ApartStep
import Verif.Backend.ApartView
import Verif.Backend.Conc
import Verif.Backend.ConcCal
import Verif.Backend.ConcOps
import Verif.Backend.ConcReqs
import Verif.Backend.ConcRows
import Verif.Backend.Crash
import Verif.Backend.Examples
import Verif.Backend.Global
import Verif.Backend.History
import Verif.Backend.Inv
import Verif.Backend.InvOps
import Verif.Backend.InvOps2
import Verif.Backend.Lively
import Verif.Backend.Model
import Verif.Backend.Notes
import Verif.Backend.Ops
import Verif.Backend.Ops2
import Verif.Backend.Own
import Verif.Backend.OwnBoot
import Verif.Backend.OwnOps
import Verif.Backend.OwnReserve
import Verif.Backend.OwnRun
import Verif.Backend.OwnShare
import Verif.Backend.OwnStep
import Verif.Backend.OwnSys
import Verif.Backend.Prog
import Verif.Backend.PropsApart
import Verif.Backend.PropsBoot
import Verif.Backend.PropsConc
import Verif.Backend.PropsCrash
import Verif.Backend.PropsInter
import Verif.Backend.PropsLife
import Verif.Backend.PropsLively
import Verif.Backend.PropsNotes
import Verif.Backend.PropsOwn
import Verif.Backend.PropsReserve
import Verif.Backend.PropsRows
import Verif.Backend.PropsStays
import Verif.Backend.PropsStaysApart
import Verif.Backend.PropsTrace
import Verif.Backend.PropsUp
import Verif.Backend.Query
import Verif.Backend.Rely
import Verif.Backend.Reserve
import Verif.Backend.Reserve2
import Verif.Backend.ReserveInv
import Verif.Backend.ReservePost
import Verif.Backend.Restart
import Verif.Backend.Restart2
import Verif.Backend.Run
import Verif.Backend.Spec
import Verif.Backend.SpecReserve
import Verif.Backend.Step
import Verif.Backend.Trace
import Verif.Backend.TraceInv
import Verif.Backend.TraceOps
import Verif.Backend.Up
import Verif.Backend.UpRun
import Verif.Calendar.Lemmas
import Verif.Calendar.Model
import Verif.Calendar.Props
import Verif.Calendar.PropsYears
import Verif.Calendar.Spec
import Verif.Cli.Model
import Verif.Cli.Props
import Verif.Cli.PropsFile
import Verif.Cli.PropsMore
import Verif.Cli.PropsPlan
import Verif.Cli.PropsRun
import Verif.Cli.PropsShow
import Verif.Cli.Show
import Verif.Config.Model
import Verif.Config.Props
import Verif.Coro
import Verif.Criteria.Model
import Verif.Criteria.Props
import Verif.Db.Lemmas
import Verif.Db.Model
import Verif.Db.Props
import Verif.Db.PropsBackend
import Verif.Device.Change
import Verif.Device.Junos
import Verif.Device.Lines
import Verif.Device.Model
import Verif.Device.OessText
import Verif.Device.PropsAccept
import Verif.Device.PropsAcceptVlan
import Verif.Device.PropsConfig
import Verif.Device.PropsConfigMx
import Verif.Device.PropsLines
import Verif.Device.PropsOess
import Verif.Device.PropsOessText
import Verif.Device.PropsResource
import Verif.Device.PropsSwitches
import Verif.Device.PropsTrace
import Verif.Device.Space
import Verif.Device.Switches
import Verif.Discovery.Document
import Verif.Discovery.Format
import Verif.Discovery.Model
import Verif.Discovery.Props
import Verif.Discovery.PropsDocument
import Verif.Discovery.PropsFormat
import Verif.Discovery.PropsRead
import Verif.Front.Examples
import Verif.Front.Lemmas
import Verif.Front.Model
import Verif.Front.Props
import Verif.Front.PropsFails
import Verif.Front.PropsTold
import Verif.Http.Client
import Verif.Http.Model
import Verif.Http.Props
import Verif.Http.PropsClient
import Verif.Joint.Examples
import Verif.Joint.ExamplesWhole
import Verif.Joint.Lemmas
import Verif.Joint.Model
import Verif.Joint.Props
import Verif.Joint.PropsFit
import Verif.Joint.PropsUp
import Verif.Joint.PropsWhole
import Verif.Joint.Whole
import Verif.Label.Lemmas
import Verif.Label.Model
import Verif.Label.Props
import Verif.Label.Spec
import Verif.LinkVector.Lemmas
import Verif.LinkVector.Model
import Verif.LinkVector.Props
import Verif.LinkVector.PropsTies
import Verif.LinkVector.Spec
import Verif.Nml.Format
import Verif.Nml.Model
import Verif.Nml.Paths
import Verif.Nml.Props
import Verif.Nml.PropsFormat
import Verif.Nml.PropsPaths
import Verif.Nrm.Model
import Verif.Nrm.Props
import Verif.Nrm.Spec
import Verif.Plugin.Model
import Verif.Plugin.Props
import Verif.Plugin.PropsIds
import Verif.Plugin.PropsUse
import Verif.Provider.Model
import Verif.Provider.Props
import Verif.Py
import Verif.PyLemmas
import Verif.Registry.Model
import Verif.Registry.Props
import Verif.Requester.Model
import Verif.Requester.Props
import Verif.Rest.Model
import Verif.Rest.Props
import Verif.Scheduler.Model
import Verif.Scheduler.Props
import Verif.Setup.Books
import Verif.Setup.Lemmas
import Verif.Setup.Model
import Verif.Setup.Props
import Verif.Setup.PropsFails
import Verif.Setup.PropsFormat
import Verif.Setup.PropsLearn
import Verif.Setup.PropsStart
import Verif.Setup.Served
import Verif.Ssh.Lemmas
import Verif.Ssh.Lines
import Verif.Ssh.Login
import Verif.Ssh.Model
import Verif.Ssh.PropsData
import Verif.Ssh.PropsDone
import Verif.Ssh.PropsLines
import Verif.Ssh.PropsLogin
import Verif.Ssh.PropsSender
import Verif.Ssh.Sender
import Verif.State.Model
import Verif.State.Props
import Verif.State.Spec
import Verif.Stp.Lemmas
import Verif.Stp.Model
import Verif.Stp.Props
import Verif.Stp.PropsTypes
import Verif.Stp.Spec
import Verif.Tls.Model
import Verif.Tls.Props
import Verif.View.Model
import Verif.View.Props
import Verif.Wire.Answers
import Verif.Wire.Dispatch
import Verif.Wire.Errors
import Verif.Wire.Header
import Verif.Wire.Messages
import Verif.Wire.Parts
import Verif.Wire.PartsLemmas
import Verif.Wire.PropsAnswers
import Verif.Wire.PropsDispatch
import Verif.Wire.PropsErrors
import Verif.Wire.PropsHeader
import Verif.Wire.PropsMessages
import Verif.Wire.PropsQuery
import Verif.Wire.PropsReplies
import Verif.Wire.PropsSchema
import Verif.Wire.PropsServices
import Verif.Wire.PropsTime
import Verif.Wire.Query
import Verif.Wire.Schema
import Verif.Wire.SchemaLemmas
import Verif.Wire.Time
import Verif.Wire.TimeLemmas
import Verif.Wire.Xml
import Verif.Axioms
