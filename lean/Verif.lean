import Verif.Spec.Bits
import Verif.Spec.NonSymmetric
import Verif.Model.BitBuffer
import Verif.Model.BitWriter
import Verif.Proof.Bits
import Verif.Proof.BitBuffer
import Verif.Proof.BitWriter
import Verif.Proof.Golomb
import Verif.Proof.WriterCodes
import Verif.Model.Prog
import Verif.Proof.Denote
import Verif.Proof.Codec
import Verif.Props.Reader
import Verif.Props.Writer
import Verif.Props.WriterSeq
import Verif.Spec.ByteStream
import Verif.Model.Common
import Verif.Model.NaluIndex
import Verif.Proof.Unescape
import Verif.Proof.Scan
import Verif.Proof.Scan2
import Verif.Props.ByteStream
import Verif.Proof.Checksum
import Verif.Props.Rbsp
import Verif.Proof.Tactic
import Verif.Spec.Headers
import Verif.Model.Headers
import Verif.Proof.Headers
import Verif.Proof.FixedLen
import Verif.Proof.Lossless
import Verif.Props.Headers
import Verif.Spec.Hrd
import Verif.Model.Hrd
import Verif.Proof.Hrd
import Verif.Spec.Vui
import Verif.Model.Vui
import Verif.Proof.Vui
import Verif.Spec.Vps
import Verif.Model.Vps
import Verif.Proof.Vps
import Verif.Proof.RbspTail
import Verif.Props.Vps
import Verif.Spec.Rps
import Verif.Model.Rps
import Verif.Proof.Rps
import Verif.Props.Rps
import Verif.Spec.Scaling
import Verif.Model.Scaling
import Verif.Proof.Scaling
import Verif.Props.Scaling
import Verif.Spec.SpsExt
import Verif.Model.SpsExt
import Verif.Proof.SpsExt
import Verif.Spec.Sps
import Verif.Model.Sps
import Verif.Proof.Sps
import Verif.Model.SpsDerived
import Verif.Props.Sps
import Verif.Spec.Pps
import Verif.Model.Pps
import Verif.Proof.Pps
import Verif.Props.Pps
import Verif.Spec.Pwt
import Verif.Spec.Slice
import Verif.Model.FloatLog
import Verif.Model.Pwt
import Verif.Model.Slice
import Verif.Proof.Pwt
import Verif.Proof.Slice
import Verif.Proof.Run
import Verif.Props.Slice
import Verif.Spec.Sei
import Verif.Model.Sei
import Verif.Proof.Sei
import Verif.Props.Sei
import Verif.Model.Nal
import Verif.Proof.Nal
import Verif.Spec.State
import Verif.Props.State
import Verif.Props.Nal
import Verif.Props.Stream
import Verif.Props.NalLength
import Verif.Props.Position
import Verif.Model.Rtp
import Verif.Props.Rtp
import Verif.Model.Utils
import Verif.Props.Utils
import Verif.Spec.Hvcc
import Verif.Model.Hvcc
import Verif.Proof.Hvcc
import Verif.Model.ConfigBox
import Verif.Props.ConfigBox
import Verif.Spec.Size
import Verif.Proof.Size
import Verif.Props.Size
import Verif.Spec.Std
import Verif.Spec.StdOk
import Verif.Spec.StdConf
import Verif.Spec.StdStream
import Verif.Proof.Std
import Verif.Proof.StdConf
import Verif.Props.Std
import Verif.Props.StdExample
import Verif.Props.StdLimits
import Verif.Model.Dump
import Verif.Model.DumpParam
import Verif.Model.DumpSlice
import Verif.Model.DumpSei
import Verif.Model.DumpNal
import Verif.Spec.Dump
import Verif.Spec.DumpText
import Verif.Spec.DumpTables
import Verif.Spec.DumpNalText
import Verif.Proof.Dump
import Verif.Proof.DumpLayout
import Verif.Proof.DumpLay
import Verif.Proof.DumpIndent
import Verif.Proof.DumpWords
import Verif.Proof.DumpSays
import Verif.Proof.DumpSafe
import Verif.Proof.DumpNalSays
import Verif.Proof.DumpStream
import Verif.Proof.DumpRtp
import Verif.Props.Dump
import Verif.Spec.Tool
import Verif.Model.Tool
import Verif.Proof.Tool
import Verif.Proof.Tool2
import Verif.Props.Tool
import Verif.Model.EntryPoints
import Verif.Model.Fuzz
import Verif.Props.EntryPoints
import Verif.Props.Fuzz
import Verif.Spec.Framerate
import Verif.Model.Framerate
import Verif.Props.Framerate
import Verif.Spec.Printable
import Verif.Model.Printable
import Verif.Props.Printable
import Verif.Spec.History
import Verif.Props.History
import Verif.Props.Containers
import Verif.Props.Checksum
import Verif.Proof.Streaming
import Verif.Props.SliceData
import Verif.Proof.StreamingAll
import Verif.Props.Trailing
import Verif.Props.Truncated
import Verif.Model.Work
import Verif.Proof.Work
import Verif.Proof.WorkAll
import Verif.Props.Work
import Verif.Spec.DumpShown
import Verif.Proof.DumpDet
import Verif.Proof.DumpDet1
import Verif.Proof.DumpDet2
import Verif.Proof.DumpDet3
import Verif.Proof.DumpDet4
import Verif.Proof.DumpDet5
import Verif.Proof.DumpDet6
import Verif.Proof.DumpDet7
import Verif.Proof.DumpDet8
import Verif.Proof.DumpDet9
import Verif.Props.DumpDet
import Verif.Spec.Rewrite
import Verif.Props.Rewrite
import Verif.Props.Cut
import Verif.Spec.Loss
import Verif.Props.Loss
import Verif.Spec.Order
import Verif.Props.Order
import Verif.Props.SliceSets
import Verif.Model.CommandLine
import Verif.Spec.CommandLine
import Verif.Props.CommandLine
import Verif.Spec.Program
import Verif.Props.Program
import Verif.Spec.Conforming
import Verif.Props.Conforming
import Verif.Props.ConformingMp4
import Verif.Spec.RtpSend
import Verif.Props.RtpSend
import Verif.Props.RtpSendAp
import Verif.Spec.Mixed
import Verif.Props.Mixed
import Verif.Spec.QpSent
import Verif.Props.QpSent
import Verif.Spec.StdReports
import Verif.Spec.HvccBox
import Verif.Spec.Track
import Verif.Props.Track
import Verif.Props.Resync
import Verif.Spec.Sharing
import Verif.Props.Sharing
import Verif.Spec.SliceStart
import Verif.Proof.SliceStart
import Verif.Props.SliceStart
import Verif.Spec.Front
import Verif.Proof.Front
import Verif.Proof.SliceFront
import Verif.Props.Front
import Verif.Spec.PicSize
import Verif.Props.PicSize
import Verif.Spec.Chunks
import Verif.Props.Chunks
import Verif.Spec.Double
import Verif.Model.Double
import Verif.Props.Double
import Verif.Spec.LengthPieces
import Verif.Props.LengthPieces
import Verif.Spec.ShortCodes
import Verif.Proof.Small
import Verif.Proof.SmallAll
import Verif.Props.ShortCodes
import Verif.Spec.StateSize
import Verif.Props.StateSize
import Verif.Spec.Remux
import Verif.Props.Remux
import Verif.Spec.Fragments
import Verif.Props.Fragments
import Verif.Spec.Damage
import Verif.Props.Damage
import Verif.Spec.Restart
import Verif.Props.Restart
import Verif.Spec.Recording
import Verif.Props.Recording
import Verif.Spec.Parallel
import Verif.Props.Parallel
import Verif.Spec.Extract
import Verif.Props.Extract
import Verif.Spec.Playlist
import Verif.Props.Playlist
import Verif.Tests.Aud
import Verif.Tests.Bitstream
import Verif.Tests.Common
import Verif.Tests.ConfigurationBox
import Verif.Tests.HrdParameters
import Verif.Tests.NalUnit
import Verif.Tests.Pps
import Verif.Tests.PpsMultilayerExtension
import Verif.Tests.PpsSccExtension
import Verif.Tests.PredWeightTable
import Verif.Tests.ProfileTierLevel
import Verif.Tests.Rtp
import Verif.Tests.RtpAp
import Verif.Tests.RtpFu
import Verif.Tests.RtpSingle
import Verif.Tests.ScalingListData
import Verif.Tests.Sei
import Verif.Tests.Slice
import Verif.Tests.Sps
import Verif.Tests.Sps3dExtension
import Verif.Tests.SpsMultilayerExtension
import Verif.Tests.SpsRangeExtension
import Verif.Tests.SpsSccExtension
import Verif.Tests.StRefPicSet
import Verif.Tests.SubLayerHrdParameters
import Verif.Tests.Utils
import Verif.Tests.Vps
import Verif.Tests.VuiParameters
