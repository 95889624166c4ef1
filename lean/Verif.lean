import Verif.Base
import Verif.Props.Extend
import Verif.Props.Demux
import Verif.Proofs.Nack
import Verif.Proofs.NackReport
import Verif.Props.Nack
import Verif.Props.Register
import Verif.Props.RtxCache
import Verif.Props.RtxKeep
import Verif.Props.SendQueue
import Verif.Props.MediaTime
import Verif.Props.BufferRx
import Verif.Props.Contiguity
import Verif.Props.IcePrio
import Verif.Props.IceTable
import Verif.Props.IceNom
import Verif.Props.IceSchedule
import Verif.Props.IcePoll
import Verif.Props.IceRole
import Verif.Props.Stun
import Verif.Props.Rtcp
import Verif.Props.TwccRecv
import Verif.Props.TwccSend
import Verif.Props.RtpHeader
import Verif.Props.RtpExt
import Verif.Props.Srtp
import Verif.Props.Channel
import Verif.Props.NegotiateRounds
import Verif.Props.Timeout
import Verif.Props.StrId
import Verif.Props.Profiles
import Verif.Props.Pacer
import Verif.Props.Vla
import Verif.Props.Packet
import Verif.Model.H264
import Verif.Spec.H264
import Verif.Proofs.H264
import Verif.Proofs.H264Run
import Verif.Props.H264
import Verif.Model.Av1
import Verif.Spec.Av1
import Verif.Proofs.Av1
import Verif.Proofs.Av1Run
import Verif.Proofs.Av1Emit
import Verif.Props.Av1
import Verif.Props.Vp8Desc
import Verif.Props.Vp8Agree
import Verif.Spec.Interop
import Verif.Proofs.Interop
import Verif.Props.Interop
import Verif.Spec.InteropH264
import Verif.Props.InteropH264
import Verif.Props.H265
import Verif.Props.H266
import Verif.Model.PayloadType
import Verif.Spec.PayloadType
import Verif.Proofs.PayloadType
import Verif.Props.PayloadType
import Verif.Model.StreamTx
import Verif.Proofs.StreamTx
import Verif.Proofs.StreamTx2
import Verif.Props.StreamTx
import Verif.Props.StreamTxOrder
import Verif.Props.StreamTxSafe
import Verif.Props.StreamTable
import Verif.Model.Text
import Verif.Model.Fmtp
import Verif.Model.Sdp
import Verif.Model.CandText
import Verif.Proofs.Text
import Verif.Proofs.Fmtp
import Verif.Proofs.CandText
import Verif.Proofs.Sdp
import Verif.Proofs.SdpMedia
import Verif.Proofs.SdpDesc
import Verif.Proofs.SdpLocal
import Verif.Props.Fmtp
import Verif.Props.CandText
import Verif.Props.SdpSpec
import Verif.Props.Sdp
import Verif.Props.SdpLocal
import Verif.Props.NackExact
import Verif.Props.StreamRx
import Verif.Props.StreamRx2
import Verif.Props.EndToEnd
import Verif.Props.Repair
import Verif.Props.StreamRx3
import Verif.Props.Rtt
import Verif.Props.Dlrr
import Verif.Props.SenderReport
import Verif.Model.RtcLoop
import Verif.Spec.RtcLoop
import Verif.Proofs.RtcLoop
import Verif.Props.RtcLoop
import Verif.Model.SctpStreams
import Verif.Spec.SctpStreams
import Verif.Proofs.SctpStreams
import Verif.Props.SctpStreams
import Verif.Props.SctpMessages
import Verif.Model.Bwe
import Verif.Spec.Bwe
import Verif.Proofs.Bwe
import Verif.Props.Bwe
import Verif.Props.BweTiming
import Verif.Props.BweProbe
import Verif.Props.BweRate
import Verif.Props.BweSmooth
import Verif.Props.BweWake
import Verif.Props.SdpApi
import Verif.Props.SdpApiBuild
import Verif.Props.Share
import Verif.Props.StatsTx
import Verif.Props.RtxCap
import Verif.Props.FrameQueue
import Verif.Props.FramePay
import Verif.Props.FrameCodec
import Verif.Props.MediaEvents2
import Verif.Props.FrameRx2
import Verif.Props.Requests
import Verif.Props.RequestsAsk
import Verif.Props.Alr
import Verif.Props.Snap
import Verif.Props.ReportsTime
import Verif.Props.SsrcLines
import Verif.Props.Arrival
import Verif.Props.MsidId
