import Verif.Audit
import Verif.Model.AppConfig
import Verif.Model.Bytes
import Verif.Model.Clock
import Verif.Model.Codec
import Verif.Model.CommandLine
import Verif.Model.Completion
import Verif.Model.Console
import Verif.Model.Device
import Verif.Model.Draw
import Verif.Model.Editor
import Verif.Model.EnumNames
import Verif.Model.Enums
import Verif.Model.Euler
import Verif.Model.Framing
import Verif.Model.Glam
import Verif.Model.Host
import Verif.Model.HostPackets
import Verif.Model.Http
import Verif.Model.JsonBody
import Verif.Model.MacAddress
import Verif.Model.Main
import Verif.Model.Map
import Verif.Model.Packets
import Verif.Model.Page
import Verif.Model.Pcapng
import Verif.Model.Pica
import Verif.Model.Position
import Verif.Model.PyEnums
import Verif.Model.PyFields
import Verif.Model.PyPackets
import Verif.Model.PyShow
import Verif.Model.PySize
import Verif.Model.PyStructs
import Verif.Model.PyUci
import Verif.Model.Session
import Verif.Model.Site
import Verif.Model.Stream
import Verif.Model.System
import Verif.Model.Tests
import Verif.Model.Trace
import Verif.Model.WebText
import Verif.Proofs.Alike
import Verif.Proofs.Angles
import Verif.Proofs.AppConfig
import Verif.Proofs.Binary32
import Verif.Proofs.Book
import Verif.Proofs.Burst
import Verif.Proofs.Bytes
import Verif.Proofs.Calm
import Verif.Proofs.Careful
import Verif.Proofs.CarefulExamples
import Verif.Proofs.ClockExamples
import Verif.Proofs.Codec
import Verif.Proofs.Command
import Verif.Proofs.CommandBody
import Verif.Proofs.CommandLine
import Verif.Proofs.Completion
import Verif.Proofs.Connection
import Verif.Proofs.Delivery
import Verif.Proofs.Device
import Verif.Proofs.DeviceInv
import Verif.Proofs.Dispatch
import Verif.Proofs.Editor
import Verif.Proofs.EditorRefs
import Verif.Proofs.EditorServer
import Verif.Proofs.Enumeration
import Verif.Proofs.Enums
import Verif.Proofs.Euler
import Verif.Proofs.Examples
import Verif.Proofs.Fair
import Verif.Proofs.Framing
import Verif.Proofs.Glam
import Verif.Proofs.Guests
import Verif.Proofs.Http
import Verif.Proofs.Influence
import Verif.Proofs.JsonBody
import Verif.Proofs.JsonCut
import Verif.Proofs.JsonIgnore
import Verif.Proofs.JsonLex
import Verif.Proofs.JsonPage
import Verif.Proofs.JsonStray
import Verif.Proofs.JsonWhole
import Verif.Proofs.Layout
import Verif.Proofs.LayoutParse
import Verif.Proofs.Lays
import Verif.Proofs.MacAddress
import Verif.Proofs.Machine
import Verif.Proofs.Map
import Verif.Proofs.Multicast
import Verif.Proofs.Packets
import Verif.Proofs.Page
import Verif.Proofs.PanicWitness
import Verif.Proofs.Panics
import Verif.Proofs.Params
import Verif.Proofs.PdlBits
import Verif.Proofs.Pica
import Verif.Proofs.Picture
import Verif.Proofs.Position
import Verif.Proofs.PyBack
import Verif.Proofs.PyCodec
import Verif.Proofs.PyControlees
import Verif.Proofs.PyCut
import Verif.Proofs.PyDlTdoa
import Verif.Proofs.PyInt
import Verif.Proofs.PyMessages
import Verif.Proofs.PyPatterns
import Verif.Proofs.PyRead
import Verif.Proofs.PyReadClasses
import Verif.Proofs.PyReadPacket
import Verif.Proofs.PyRoundTrip
import Verif.Proofs.PySerial
import Verif.Proofs.PyShow
import Verif.Proofs.PyShowAll
import Verif.Proofs.PyShowBrief
import Verif.Proofs.PyShowDump
import Verif.Proofs.PyShowFull
import Verif.Proofs.PyShowNamed
import Verif.Proofs.PyShowObj
import Verif.Proofs.PyShowSent
import Verif.Proofs.PyShowTold
import Verif.Proofs.PyShown
import Verif.Proofs.PyShownLine
import Verif.Proofs.PySize
import Verif.Proofs.PyStructs
import Verif.Proofs.PyTaken
import Verif.Proofs.PyTakenPacket
import Verif.Proofs.PyTlvPacket
import Verif.Proofs.PyUci
import Verif.Proofs.PyWritten
import Verif.Proofs.RangeExact
import Verif.Proofs.Ranging
import Verif.Proofs.Reading
import Verif.Proofs.Reasons
import Verif.Proofs.Receive
import Verif.Proofs.Rotation
import Verif.Proofs.Scope
import Verif.Proofs.SetApp
import Verif.Proofs.Site
import Verif.Proofs.SiteExamples
import Verif.Proofs.SiteFair
import Verif.Proofs.Stream
import Verif.Proofs.System
import Verif.Proofs.SystemExamples
import Verif.Proofs.Tame
import Verif.Proofs.TestsAnswer
import Verif.Proofs.TestsExamples
import Verif.Proofs.TestsGood
import Verif.Proofs.TestsHost
import Verif.Proofs.TestsJoint
import Verif.Proofs.TestsPlan
import Verif.Proofs.TestsProgress
import Verif.Proofs.TestsRun
import Verif.Proofs.TestsStages
import Verif.Proofs.TestsSteps
import Verif.Proofs.Trace
import Verif.Proofs.TraceEnd
import Verif.Proofs.Underflow
import Verif.Proofs.UnitTests
import Verif.Proofs.Vectors
import Verif.Proofs.WebText
import Verif.Props.Answers
import Verif.Props.AppConfig
import Verif.Props.Burst
import Verif.Props.Clock
import Verif.Props.Codec
import Verif.Props.Codes
import Verif.Props.CommandLine
import Verif.Props.Commute
import Verif.Props.Completion
import Verif.Props.Config
import Verif.Props.Connection
import Verif.Props.Console
import Verif.Props.Conversation
import Verif.Props.Defaults
import Verif.Props.Dispatch
import Verif.Props.Duplex
import Verif.Props.Editor
import Verif.Props.Enumeration
import Verif.Props.Euler
import Verif.Props.Expected
import Verif.Props.Fair
import Verif.Props.Framing
import Verif.Props.Guests
import Verif.Props.Http
import Verif.Props.Influence
import Verif.Props.Interval
import Verif.Props.JsonBody
import Verif.Props.Layout
import Verif.Props.Life
import Verif.Props.MacAddress
import Verif.Props.Machine
import Verif.Props.Main
import Verif.Props.Multicast
import Verif.Props.Notices
import Verif.Props.OpenApi
import Verif.Props.Order
import Verif.Props.Pace
import Verif.Props.Page
import Verif.Props.Panics
import Verif.Props.Params
import Verif.Props.Pcapng
import Verif.Props.Picture
import Verif.Props.Position
import Verif.Props.PyInt
import Verif.Props.PyLayout
import Verif.Props.PyPackets
import Verif.Props.PyShow
import Verif.Props.PySize
import Verif.Props.PyStructs
import Verif.Props.PyUci
import Verif.Props.Queries
import Verif.Props.Ranging
import Verif.Props.Rate
import Verif.Props.Reading
import Verif.Props.Registry
import Verif.Props.Replies
import Verif.Props.Reset
import Verif.Props.Rotation
import Verif.Props.Rounds
import Verif.Props.Schedule
import Verif.Props.Session
import Verif.Props.Site
import Verif.Props.SiteFair
import Verif.Props.Stops
import Verif.Props.Stream
import Verif.Props.System
import Verif.Props.Tests
import Verif.Props.Told
import Verif.Props.Trace
import Verif.Props.Transfer
import Verif.Props.UnitTests
import Verif.Props.Vectors
import Verif.Props.WebText
import Verif.Spec.Answers
import Verif.Spec.AppConfig
import Verif.Spec.AppFormat
import Verif.Spec.Burst
import Verif.Spec.Caps
import Verif.Spec.Clock
import Verif.Spec.Command
import Verif.Spec.CommandLine
import Verif.Spec.Commute
import Verif.Spec.Completion
import Verif.Spec.Config
import Verif.Spec.Connection
import Verif.Spec.Console
import Verif.Spec.Conversation
import Verif.Spec.Defaults
import Verif.Spec.Dispatch
import Verif.Spec.Duplex
import Verif.Spec.Editor
import Verif.Spec.Enumeration
import Verif.Spec.Fair
import Verif.Spec.Framing
import Verif.Spec.Geometry
import Verif.Spec.Guests
import Verif.Spec.Hex
import Verif.Spec.Http
import Verif.Spec.Influence
import Verif.Spec.Json
import Verif.Spec.JsonText
import Verif.Spec.Layout
import Verif.Spec.Life
import Verif.Spec.Machine
import Verif.Spec.Multicast
import Verif.Spec.Notices
import Verif.Spec.OpenApi
import Verif.Spec.Page
import Verif.Spec.Panics
import Verif.Spec.Pcapng
import Verif.Spec.Pdl
import Verif.Spec.PdlPackets
import Verif.Spec.Picture
import Verif.Spec.PyCut
import Verif.Spec.PyInt
import Verif.Spec.PyLayout
import Verif.Spec.PyPackets
import Verif.Spec.PySerial
import Verif.Spec.PyShow
import Verif.Spec.PyShown
import Verif.Spec.PySize
import Verif.Spec.PyStructs
import Verif.Spec.PyUci
import Verif.Spec.Ranging
import Verif.Spec.Reading
import Verif.Spec.Reasons
import Verif.Spec.Registry
import Verif.Spec.Replies
import Verif.Spec.Rotation
import Verif.Spec.Schedule
import Verif.Spec.Scope
import Verif.Spec.Site
import Verif.Spec.SiteFair
import Verif.Spec.Stops
import Verif.Spec.Stream
import Verif.Spec.System
import Verif.Spec.Trace
import Verif.Spec.UnitTests
import Verif.Spec.Vectors
import Verif.Spec.WebText
import Verif.Spec.Wire
