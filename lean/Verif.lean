import Verif.Lemmas.AckNack
import Verif.Lemmas.AllocAlgo
import Verif.Lemmas.AllocFull
import Verif.Lemmas.BitField
import Verif.Lemmas.Bits
import Verif.Lemmas.Bssgp
import Verif.Lemmas.Bvc
import Verif.Lemmas.Class
import Verif.Lemmas.Confirm
import Verif.Lemmas.Counters
import Verif.Lemmas.Crbb
import Verif.Lemmas.Csn1Dec
import Verif.Lemmas.Csn1Enc
import Verif.Lemmas.Csn1One
import Verif.Lemmas.Csn1Read
import Verif.Lemmas.Csn1Safe
import Verif.Lemmas.Csn1Step
import Verif.Lemmas.DataBlock
import Verif.Lemmas.DataHeader
import Verif.Lemmas.DlAckMsg
import Verif.Lemmas.DlMsg
import Verif.Lemmas.DlPda
import Verif.Lemmas.DlPoll
import Verif.Lemmas.DlPua
import Verif.Lemmas.DlService
import Verif.Lemmas.DlStart
import Verif.Lemmas.DlWindow
import Verif.Lemmas.Link
import Verif.Lemmas.Live
import Verif.Lemmas.LiveDl
import Verif.Lemmas.LiveDlEff
import Verif.Lemmas.LiveEff
import Verif.Lemmas.LiveStuck
import Verif.Lemmas.LiveUl
import Verif.Lemmas.LlcSeg
import Verif.Lemmas.MsLife
import Verif.Lemmas.MsStore
import Verif.Lemmas.PcuCfg
import Verif.Lemmas.PcuIf
import Verif.Lemmas.PcuInfo
import Verif.Lemmas.Polls
import Verif.Lemmas.RaCap
import Verif.Lemmas.ResReq
import Verif.Lemmas.Rim
import Verif.Lemmas.RimMob
import Verif.Lemmas.Sched
import Verif.Lemmas.SchedCtrl
import Verif.Lemmas.SegBlock
import Verif.Lemmas.SegFill
import Verif.Lemmas.SegLink
import Verif.Lemmas.Segment
import Verif.Lemmas.Supervise
import Verif.Lemmas.TbfFsm
import Verif.Lemmas.TbfUl
import Verif.Lemmas.UlAckMsg
import Verif.Lemmas.UlAckTruth
import Verif.Lemmas.UlComplete
import Verif.Lemmas.UlEnd
import Verif.Lemmas.UlMsg
import Verif.Lemmas.UlMsg2
import Verif.Lemmas.UlService
import Verif.Lemmas.UlStream
import Verif.Lemmas.UlWindow
import Verif.Lemmas.Ulc
import Verif.Lemmas.Vty
import Verif.Lemmas.VtyKeep
import Verif.Lemmas.VtyOne
import Verif.Lemmas.VtyOneCmd
import Verif.Lemmas.World
import Verif.Lemmas.WorldOps
import Verif.Model.AckNack
import Verif.Model.AllFull
import Verif.Model.AllocAlgo
import Verif.Model.Analyse
import Verif.Model.BitField
import Verif.Model.BlkCtr
import Verif.Model.Bssgp
import Verif.Model.Bvc
import Verif.Model.Cache
import Verif.Model.Ccu
import Verif.Model.Clock
import Verif.Model.Codel
import Verif.Model.CodingScheme
import Verif.Model.Confirm
import Verif.Model.Counters
import Verif.Model.Crbb
import Verif.Model.Csn1
import Verif.Model.Csn1Dl
import Verif.Model.Csn1Ul
import Verif.Model.DataBlock
import Verif.Model.DlAck
import Verif.Model.DlCtrl
import Verif.Model.DlData
import Verif.Model.DlPoll
import Verif.Model.DlStart
import Verif.Model.E1
import Verif.Model.FlowCtl
import Verif.Model.Fn
import Verif.Model.ImmAss
import Verif.Model.Limits
import Verif.Model.Link
import Verif.Model.Live
import Verif.Model.LlcQueue
import Verif.Model.MsCs
import Verif.Model.MsLife
import Verif.Model.MsStore
import Verif.Model.Mslot
import Verif.Model.Nacc
import Verif.Model.NsCfg
import Verif.Model.Paging
import Verif.Model.PagingReq
import Verif.Model.PchTimer
import Verif.Model.PcuIf
import Verif.Model.PcuTx
import Verif.Model.Polls
import Verif.Model.PtcchTx
import Verif.Model.RaCap
import Verif.Model.Rach
import Verif.Model.Reports
import Verif.Model.ReqAnswer
import Verif.Model.Rim
import Verif.Model.RlcWindowDl
import Verif.Model.RlcWindowUl
import Verif.Model.Sched
import Verif.Model.Segment
import Verif.Model.Split
import Verif.Model.Ta
import Verif.Model.Tap
import Verif.Model.TbfFsm
import Verif.Model.UlAckMsg
import Verif.Model.UlCtrl
import Verif.Model.UlData
import Verif.Model.UlEnd
import Verif.Model.UlRx
import Verif.Model.Ulc
import Verif.Model.Vty
import Verif.Model.WindowSize
import Verif.Model.World
import Verif.Props.C01
import Verif.Props.C02
import Verif.Props.C03
import Verif.Props.C04
import Verif.Props.C05
import Verif.Props.C06
import Verif.Props.C07
import Verif.Props.C08
import Verif.Props.C09
import Verif.Props.C10
import Verif.Props.C11
import Verif.Props.C12
import Verif.Props.C13
import Verif.Props.C14
import Verif.Props.C15
import Verif.Props.C16
import Verif.Props.C17
import Verif.Props.C18
import Verif.Props.C19
import Verif.Props.C20
import Verif.Props.C21
import Verif.Props.C22
import Verif.Props.C23
import Verif.Props.C24
import Verif.Props.C25
import Verif.Props.C26
import Verif.Props.C27
import Verif.Props.C28
import Verif.Props.C29
import Verif.Props.C30
import Verif.Props.C31
import Verif.Props.C32
import Verif.Props.C33
import Verif.Props.C34
import Verif.Props.C35
import Verif.Props.C36
import Verif.Props.C37
import Verif.Props.C38
import Verif.Props.C39
import Verif.Props.C40
import Verif.Props.C41
import Verif.Props.C42
import Verif.Props.C43
import Verif.Props.C44
import Verif.Props.C44Ul
import Verif.Props.C45
import Verif.Props.C46
import Verif.Props.C47
import Verif.Props.C48
import Verif.Props.C49
import Verif.Props.C50
import Verif.Props.C51
import Verif.Props.C52
import Verif.Props.C53
import Verif.Props.C54
import Verif.Props.C55
import Verif.Props.C56
import Verif.Props.C57
import Verif.Props.C58
import Verif.Props.C59
import Verif.Props.C60
import Verif.Props.C61
import Verif.Props.C62
import Verif.Props.C63
import Verif.Props.C64
import Verif.Props.C65
import Verif.Props.C66
import Verif.Props.C67
import Verif.Props.C68
import Verif.Props.C69
import Verif.Props.C70
import Verif.Props.C71
import Verif.Props.C72
import Verif.Props.C73
import Verif.Props.C73Ask
import Verif.Props.C74
import Verif.Props.C75
import Verif.Props.C76
import Verif.Props.C77
import Verif.Props.C78
import Verif.Props.C79
import Verif.Props.C80
import Verif.Props.C81
import Verif.Props.C82
import Verif.Props.C83
import Verif.Props.C84
import Verif.Props.C85
import Verif.Props.C86
import Verif.Props.C87
import Verif.Props.C88
import Verif.Props.C89
import Verif.Props.C90
import Verif.Props.C91
import Verif.Props.C92
import Verif.Props.C93
import Verif.Props.C94
import Verif.Props.C95
import Verif.Props.C96
import Verif.Props.C97
import Verif.Props.C98
import Verif.Props.C99
import Verif.Spec.AckNack
import Verif.Spec.Analyse
import Verif.Spec.BitStream
import Verif.Spec.BlkCtr
import Verif.Spec.Bssgp
import Verif.Spec.BtsCfg
import Verif.Spec.Bvc
import Verif.Spec.Cache
import Verif.Spec.Ccu
import Verif.Spec.Clock
import Verif.Spec.CodingScheme
import Verif.Spec.Confirm
import Verif.Spec.Counters
import Verif.Spec.Crbb
import Verif.Spec.Csn1
import Verif.Spec.DataHeader
import Verif.Spec.DlAssign
import Verif.Spec.DlMsg
import Verif.Spec.DlPoll
import Verif.Spec.DlService
import Verif.Spec.DlStart
import Verif.Spec.DlStream
import Verif.Spec.E1
import Verif.Spec.FlowCtl
import Verif.Spec.Full
import Verif.Spec.ImmAss
import Verif.Spec.Known
import Verif.Spec.Link
import Verif.Spec.Live
import Verif.Spec.LlcQueue
import Verif.Spec.LlcSeg
import Verif.Spec.MsLife
import Verif.Spec.MsStore
import Verif.Spec.MslotClass
import Verif.Spec.Nacc
import Verif.Spec.NsCfg
import Verif.Spec.Paging
import Verif.Spec.PagingReq
import Verif.Spec.PchTimer
import Verif.Spec.PcuIf
import Verif.Spec.PcuTx
import Verif.Spec.Pdch
import Verif.Spec.Polls
import Verif.Spec.PtcchTx
import Verif.Spec.RaCap
import Verif.Spec.Rach
import Verif.Spec.Reports
import Verif.Spec.ReqAnswer
import Verif.Spec.ResReq
import Verif.Spec.Rim
import Verif.Spec.Sched
import Verif.Spec.SegStream
import Verif.Spec.Split
import Verif.Spec.Supervision
import Verif.Spec.SwitchTimes
import Verif.Spec.Ta
import Verif.Spec.Tap
import Verif.Spec.TbfLife
import Verif.Spec.UlAckMsg
import Verif.Spec.UlEnd
import Verif.Spec.UlMsg
import Verif.Spec.UlMsg2
import Verif.Spec.UlService
import Verif.Spec.UlStream
import Verif.Spec.Vty
import Verif.Spec.VtyOne
import Verif.Spec.WindowSize
