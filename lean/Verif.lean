import Verif.Model.Common
import Verif.Model.Payload
import Verif.Model.Transport
import Verif.Model.Link
import Verif.Model.Text
import Verif.Model.Version
import Verif.Model.HostMethod
import Verif.Model.Pool
import Verif.Model.Client
import Verif.Model.Server
import Verif.Model.Ops
import Verif.Spec.Transport
import Verif.Spec.Version
import Verif.Spec.Pool
import Verif.Proof.Bytes
import Verif.Proof.Transport
import Verif.Proof.Link
import Verif.Proof.Reassembly
import Verif.Proof.Version
import Verif.Proof.Pool
import Verif.Proof.Guards
import Verif.Proof.History
import Verif.Props.Payload
import Verif.Props.Transport
import Verif.Props.Version
import Verif.Props.Guards
import Verif.Props.History
import Verif.Model.Session
import Verif.Spec.Session
import Verif.Proof.Session
import Verif.Proof.Agree
import Verif.Proof.Frames
import Verif.Proof.Limits
import Verif.Props.Session
import Verif.Proof.Keys
import Verif.Props.Keys
import Verif.Proof.States
import Verif.Props.States
import Verif.Model.StringEsc
import Verif.Spec.StringEsc
import Verif.Proof.StringEsc
import Verif.Props.StringEsc
import Verif.Model.Duration
import Verif.Model.DateTime
import Verif.Spec.Duration
import Verif.Spec.DateTime
import Verif.Proof.Duration
import Verif.Proof.DateTime
import Verif.Props.Duration
import Verif.Props.DateTime
import Verif.Model.Ints
import Verif.Spec.Ints
import Verif.Proof.NumText
import Verif.Proof.Ints
import Verif.Props.Ints
import Verif.Model.Command
import Verif.Spec.Command
import Verif.Proof.Command
import Verif.Props.Command
import Verif.Model.PSObject
import Verif.Spec.PSObject
import Verif.Proof.PSObject
import Verif.Props.PSObject
import Verif.Model.Crypto
import Verif.Spec.Crypto
import Verif.Proof.Crypto
import Verif.Props.Crypto
import Verif.Model.Enum
import Verif.Spec.Enum
import Verif.Proof.Enum
import Verif.Props.Enum
import Verif.Model.Host
import Verif.Model.Registry
import Verif.Spec.Host
import Verif.Spec.Registry
import Verif.Proof.Host
import Verif.Proof.Registry
import Verif.Props.Host
import Verif.Props.Registry
import Verif.Spec.Lifecycle
import Verif.Props.Lifecycle
import Verif.Model.Serializer
import Verif.Model.Clixml
import Verif.Model.Library
import Verif.Spec.Serializer
import Verif.Spec.Clixml
import Verif.Proof.Serializer
import Verif.Proof.SerializerObj
import Verif.Proof.SerializerSim
import Verif.Proof.SerializerRuns
import Verif.Proof.SerializerPaths
import Verif.Proof.SerializerCheck
import Verif.Proof.Progress
import Verif.Proof.Clixml
import Verif.Props.Serializer
import Verif.Props.Clixml
import Verif.Model.XmlText
import Verif.Spec.XmlText
import Verif.Proof.XmlText
import Verif.Proof.XmlDoc
import Verif.Spec.XmlGrammar
import Verif.Proof.XmlGrammar
import Verif.Props.XmlText
import Verif.Model.Records
import Verif.Spec.Records
import Verif.Proof.Records
import Verif.Props.Records
import Verif.Spec.Shared
import Verif.Proof.SerializerShared
import Verif.Props.Shared
import Verif.Spec.Forms
import Verif.Proof.Forms
import Verif.Props.Forms
import Verif.Spec.Reading
import Verif.Proof.Reading
import Verif.Proof.ReadingTree
import Verif.Proof.ReadingKept
import Verif.Proof.ReadingAll
import Verif.Proof.ReadingEnum
import Verif.Props.Reading
import Verif.Model.Wire
import Verif.Spec.Wire
import Verif.Proof.Utf8
import Verif.Proof.Wire
import Verif.Props.Wire
import Verif.Model.Events
import Verif.Spec.Events
import Verif.Proof.Events
import Verif.Props.Events
import Verif.Model.ByteSession
import Verif.Spec.ByteSession
import Verif.Proof.ByteSession
import Verif.Props.ByteSession
import Verif.Spec.Extent
import Verif.Props.Extent
import Verif.Model.Contents
import Verif.Spec.Contents
import Verif.Proof.Contents
import Verif.Props.Contents
import Verif.Spec.Written
import Verif.Proof.Written
import Verif.Props.Written
import Verif.Model.Codec
import Verif.Spec.Codec
import Verif.Proof.Codec
import Verif.Props.Codec
import Verif.Model.HostErrors
import Verif.Spec.HostErrors
import Verif.Proof.HostErrors
import Verif.Props.HostErrors
import Verif.Spec.HostSession
import Verif.Proof.HostSession
import Verif.Props.HostSession
import Verif.Model.Numbers
import Verif.Spec.Numbers
import Verif.Proof.Guid
import Verif.Proof.Numbers
import Verif.Proof.Floats
import Verif.Proof.FloatsRead
import Verif.Proof.FloatsShort
import Verif.Proof.Decimals
import Verif.Props.Numbers
import Verif.Props.NumbersShort
import Verif.Spec.Messages
import Verif.Proof.Messages
import Verif.Props.Messages
import Verif.Spec.Layouts
import Verif.Proof.Layouts
import Verif.Props.Layouts
import Verif.Model.Property
import Verif.Spec.Property
import Verif.Proof.Property
import Verif.Props.Property
import Verif.Model.World
import Verif.Spec.World
import Verif.Proof.World
import Verif.Proof.WorldStep
import Verif.Proof.WorldViews
import Verif.Props.World
import Verif.Spec.NumbersOnly
import Verif.Proof.NumbersOnly
import Verif.Props.NumbersOnly
import Verif.Model.Indexing
import Verif.Spec.Indexing
import Verif.Proof.Indexing
import Verif.Props.Indexing
import Verif.Model.Guard
import Verif.Props.Guard
import Verif.Model.Bag
import Verif.Props.Bag
import Verif.Props.ByteHost
import Verif.Spec.Refused
import Verif.Proof.Refused
import Verif.Props.Refused
import Verif.Model.Builder
import Verif.Spec.Builder
import Verif.Proof.Builder
import Verif.Props.Builder
import Verif.Props.BytePipe
import Verif.Model.Streams
import Verif.Spec.Streams
import Verif.Props.Streams
import Verif.Props.ReadingKeys
import Verif.Props.ReadingFractions
import Verif.Props.BuilderObjects
import Verif.Model.Shown
import Verif.Spec.Shown
import Verif.Proof.Shown
import Verif.Props.Shown
import Verif.Model.EnumInvert
import Verif.Props.EnumInvert
