import Verif.Lemmas.Modes
import Verif.Spec.Follow
import Verif.Lemmas.Truncated
import Verif.Lemmas.Follow
import Verif.Props.Setters
import Verif.Props.BitOps
import Verif.Props.BitOpsFull
import Verif.Props.FieldsChecked
import Verif.Props.TextChecked
import Verif.Props.Codes
import Verif.Props.Parse
import Verif.Props.Layout
import Verif.Props.Values
import Verif.Props.Construct
import Verif.Props.Convert
import Verif.Props.Sysex
import Verif.Props.SysexBytes
import Verif.Props.Text
import Verif.Props.TextStream
import Verif.Props.Dispatch
import Verif.Props.Streams
import Verif.Props.Packet
import Verif.Props.Ci
import Verif.Props.Enums
import Verif.Props.Rebuffer
import Verif.Props.CiExact
import Verif.Props.SysexDebug
import Verif.Props.SysexStreams
import Verif.Props.SysexLow
import Verif.Props.SysexGaps
import Verif.Props.Reparse
import Verif.Props.ReparseExact
import Verif.Props.ConstructExact
import Verif.Props.TextNewExact
import Verif.Props.EndToEnd
import Verif.Props.PacketView
import Verif.Props.PacketsExact
import Verif.Props.Lens
import Verif.Props.LensExact
import Verif.Props.Canonical
import Verif.Props.CanonicalExact
import Verif.Props.Programs
import Verif.Props.Modes
import Verif.Props.Truncated
import Verif.Props.Follow
import Verif.Props.Derived
import Verif.Props.Equality
import Verif.Props.EqualityNew
import Verif.Model.Custom
import Verif.Spec.Custom
import Verif.Lemmas.SpliceCap
import Verif.Lemmas.Custom
import Verif.Props.Custom
import Verif.Props.CustomRoomy
import Verif.Check.ChannelVoice
import Verif.Check.Ci
import Verif.Check.Docs
import Verif.Check.FlexData
import Verif.Check.Misc
import Verif.Check.Sysex7
import Verif.Check.Sysex8
import Verif.Check.UmpStream
import Verif.Lemmas.Strings
import Verif.Props.TextExact
import Verif.Props.TextNumbers
import Verif.Props.SysexNew
import Verif.Props.TextIter
import Verif.Props.StreamsBytes
import Verif.Spec.Standard
import Verif.Props.Standard
import Verif.Props.BytesExact
import Verif.Props.RebufferReads
import Verif.Props.MoreExact
import Verif.Model.Features
import Verif.Spec.Features
import Verif.Props.Features
import Verif.Model.Usize
import Verif.Spec.Usize
import Verif.Props.Usize
import Verif.Model.Wrap
import Verif.Spec.Wrap
import Verif.Props.Wrap
import Verif.Lemmas.SysexBytesExact
import Verif.Props.SysexBytesExact
import Verif.Lemmas.SysexBytesGuess
import Verif.Props.SysexBytesGuess
import Verif.Props.PacketPayload
import Verif.Model.Refusal
import Verif.Spec.Refusal
import Verif.Lemmas.Refusal
import Verif.Props.Refusal
import Verif.Model.Lazy
import Verif.Spec.Lazy
import Verif.Lemmas.Lazy
import Verif.Lemmas.LazyApi
import Verif.Props.Lazy
import Verif.Model.LazyConvert
import Verif.Lemmas.LazyConvert
import Verif.Props.LazyConvert
import Verif.Spec.Effort
import Verif.Spec.SpliceLow
import Verif.Lemmas.Effort
import Verif.Lemmas.EffortApi
import Verif.Lemmas.EffortExact
import Verif.Lemmas.SpliceLow
import Verif.Lemmas.Noted
import Verif.Props.Effort
import Verif.Props.EffortFixed
import Verif.Spec.Journey
import Verif.Props.Journey
import Verif.Props.JourneyWords
import Verif.Lemmas.ReadyHistory
import Verif.Props.AnyHistory
import Verif.Spec.SysexJourney
import Verif.Lemmas.SysexJourney
import Verif.Props.SysexJourney
import Verif.Spec.SysexArrays
import Verif.Lemmas.SysexArrays
import Verif.Props.SysexArrays
import Verif.Spec.TextHistory
import Verif.Props.TextHistory
import Verif.Spec.TextJourney
import Verif.Lemmas.TextTail
import Verif.Props.TextJourney
import Verif.Model.UsizeText
import Verif.Lemmas.UsizeText
import Verif.Lemmas.UsizeTextWrap
import Verif.Spec.UsizeText
import Verif.Props.UsizeText
import Verif.Props.TextDebug
import Verif.Lemmas.CustomBytes
import Verif.Spec.CustomBytes
import Verif.Props.CustomAny
import Verif.Props.CustomAnyText
import Verif.Props.CustomNew
import Verif.Props.CustomNewSysex
import Verif.Props.CustomNewText
import Verif.Props.CustomBytes
import Verif.Lemmas.Room
import Verif.Props.CustomRoom
import Verif.Lemmas.SysexBytesOctet
import Verif.Lemmas.SysexBytesRest
import Verif.Lemmas.SysexBytesStale
import Verif.Props.SysexBytesAny
import Verif.Lemmas.SysexBytesEnd
import Verif.Props.SysexBytesEnd
import Verif.Lemmas.LazyOctet
import Verif.Props.LazyBytes
import Verif.Spec.UsizeBytes
import Verif.Lemmas.UsizeBytes
import Verif.Props.UsizeBytes
import Verif.Spec.ConvertWords
import Verif.Lemmas.ConvertWords
import Verif.Props.ConvertWords
import Verif.Spec.Gateway
import Verif.Lemmas.Gateway
import Verif.Props.Gateway
import Verif.Spec.Reassembly
import Verif.Lemmas.Reassembly
import Verif.Props.Reassembly
import Verif.Spec.Pieces
import Verif.Lemmas.Pieces
import Verif.Lemmas.PiecesMessages
import Verif.Props.Pieces
import Verif.Lemmas.PiecesRead
import Verif.Props.PiecesMessages
import Verif.Spec.PiecesBytes
import Verif.Lemmas.PiecesBytes
import Verif.Props.PiecesBytes
import Verif.Spec.Holding
import Verif.Spec.Behind
import Verif.Lemmas.Behind
import Verif.Props.Behind
import Verif.Spec.BehindBytes
import Verif.Props.BehindBytes
import Verif.Lemmas.BehindSysex
import Verif.Props.BehindSysex
import Verif.Lemmas.BehindPayload
import Verif.Props.BehindPayload
import Verif.Spec.BehindPayload
import Verif.Lemmas.BehindHint
import Verif.Lemmas.BehindSpill
import Verif.Props.BehindHint
import Verif.Spec.BehindMixed
import Verif.Lemmas.BehindMixed
import Verif.Lemmas.BehindText
import Verif.Props.BehindMixed
import Verif.Props.BehindText
import Verif.Spec.Link
import Verif.Lemmas.Link
import Verif.Props.Link
import Verif.Props.LinkGateway
import Verif.Spec.Skip
import Verif.Lemmas.Skip
import Verif.Props.Skip
import Verif.Spec.Cable
import Verif.Lemmas.Cable
import Verif.Props.Cable
import Verif.Spec.Router
import Verif.Lemmas.Router
import Verif.Props.Router
import Verif.Spec.Mapper
import Verif.Lemmas.Mapper
import Verif.Props.Mapper
import Verif.Props.CiLine
import Verif.Props.CustomCi
import Verif.Spec.TextRun
import Verif.Spec.Built
import Verif.Props.EndToEndLine
import Verif.Props.EndToEndBytes
import Verif.Props.Recorder
import Verif.Props.Discovery
import Verif.Props.Blocks
import Verif.Props.Dump
import Verif.Props.EndToEndArray
import Verif.Props.EndToEndText
