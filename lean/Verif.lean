import Verif.Bits
import Verif.Lemmas.At
import Verif.Lemmas.Collect
import Verif.Lemmas.Crc
import Verif.Lemmas.Cssr
import Verif.Lemmas.Exact
import Verif.Lemmas.Fld
import Verif.Lemmas.Layout
import Verif.Lemmas.Mask
import Verif.Lemmas.MaskCopy
import Verif.Lemmas.Mlambda
import Verif.Lemmas.Osnma
import Verif.Lemmas.OsnmaMsg
import Verif.Lemmas.OsnmaRun
import Verif.Lemmas.Post
import Verif.Lemmas.Qznma
import Verif.Lemmas.Rawnav
import Verif.Lemmas.Read
import Verif.Lemmas.Reduction
import Verif.Lemmas.RtcmBiasEnc
import Verif.Lemmas.RtcmIono
import Verif.Lemmas.RtcmLoc
import Verif.Lemmas.RtcmSsr
import Verif.Lemmas.Search
import Verif.Lemmas.SearchOpt
import Verif.Lemmas.SearchSim
import Verif.Lemmas.Slots
import Verif.Lemmas.Time
import Verif.Lemmas.Wr
import Verif.Model.Antenna
import Verif.Model.Antex
import Verif.Model.Astro
import Verif.Model.BasePair
import Verif.Model.Bcnav
import Verif.Model.Bds
import Verif.Model.BdsNav
import Verif.Model.BiasFile
import Verif.Model.Camf
import Verif.Model.ClkFile
import Verif.Model.Cnav
import Verif.Model.CopyBuff
import Verif.Model.Csmooth
import Verif.Model.Cssr
import Verif.Model.Dgps
import Verif.Model.Dop
import Verif.Model.Edit
import Verif.Model.Ephsel
import Verif.Model.Frame
import Verif.Model.GloNav
import Verif.Model.GloOrbit
import Verif.Model.Grid
import Verif.Model.HasPage
import Verif.Model.IonoDelay
import Verif.Model.Jma
import Verif.Model.Kepler
import Verif.Model.KfUpdate
import Verif.Model.L6
import Verif.Model.Lambda
import Verif.Model.Mask
import Verif.Model.Mdc
import Verif.Model.MdcArea
import Verif.Model.MeasVar
import Verif.Model.Merge
import Verif.Model.Mlambda
import Verif.Model.Msm
import Verif.Model.Navic
import Verif.Model.NgsAnt
import Verif.Model.Osnma
import Verif.Model.Par
import Verif.Model.Peph
import Verif.Model.Peph2
import Verif.Model.Pppssr
import Verif.Model.Process
import Verif.Model.Pvs
import Verif.Model.QualIdx
import Verif.Model.Qznma
import Verif.Model.Rawnav
import Verif.Model.Resamb
import Verif.Model.Rinex
import Verif.Model.RnxEnc
import Verif.Model.RnxHead
import Verif.Model.RnxObs
import Verif.Model.Rnxnav
import Verif.Model.RtcmAnt
import Verif.Model.RtcmBias
import Verif.Model.RtcmBiasEnc
import Verif.Model.RtcmEph
import Verif.Model.RtcmFrame
import Verif.Model.RtcmInteg
import Verif.Model.RtcmLoc
import Verif.Model.RtcmSsr
import Verif.Model.RtcmSta
import Verif.Model.RtcmTime
import Verif.Model.RtcmTypes
import Verif.Model.Sat
import Verif.Model.Satposs
import Verif.Model.Sbas
import Verif.Model.SbasAux
import Verif.Model.SbasIono
import Verif.Model.SdVal
import Verif.Model.Sdres
import Verif.Model.Sig
import Verif.Model.Sinca
import Verif.Model.Sp3
import Verif.Model.Stdpos
import Verif.Model.Sval
import Verif.Model.Time
import Verif.Model.Tropo
import Verif.Model.Udstate
import Verif.Model.Windup
import Verif.Model.Yuma
import Verif.Model.Zdres
import Verif.Props.C01
import Verif.Props.C02
import Verif.Props.C03
import Verif.Props.C04
import Verif.Props.C05
import Verif.Props.C06
import Verif.Props.C07
import Verif.Props.C08
import Verif.Props.C09
import Verif.Props.C10
import Verif.Props.C100
import Verif.Props.C101
import Verif.Props.C102
import Verif.Props.C103
import Verif.Props.C104
import Verif.Props.C105
import Verif.Props.C106
import Verif.Props.C107
import Verif.Props.C108
import Verif.Props.C109
import Verif.Props.C11
import Verif.Props.C110
import Verif.Props.C111
import Verif.Props.C112
import Verif.Props.C113
import Verif.Props.C114
import Verif.Props.C115
import Verif.Props.C116
import Verif.Props.C117
import Verif.Props.C12
import Verif.Props.C13
import Verif.Props.C14
import Verif.Props.C15
import Verif.Props.C16
import Verif.Props.C17
import Verif.Props.C18
import Verif.Props.C19
import Verif.Props.C20
import Verif.Props.C21
import Verif.Props.C22
import Verif.Props.C23
import Verif.Props.C24
import Verif.Props.C25
import Verif.Props.C26
import Verif.Props.C27
import Verif.Props.C28
import Verif.Props.C29
import Verif.Props.C30
import Verif.Props.C31
import Verif.Props.C32
import Verif.Props.C33
import Verif.Props.C34
import Verif.Props.C35
import Verif.Props.C36
import Verif.Props.C37
import Verif.Props.C38
import Verif.Props.C39
import Verif.Props.C40
import Verif.Props.C41
import Verif.Props.C42
import Verif.Props.C43
import Verif.Props.C44
import Verif.Props.C45
import Verif.Props.C46
import Verif.Props.C47
import Verif.Props.C48
import Verif.Props.C49
import Verif.Props.C50
import Verif.Props.C51
import Verif.Props.C52
import Verif.Props.C53
import Verif.Props.C54
import Verif.Props.C55
import Verif.Props.C56
import Verif.Props.C57
import Verif.Props.C58
import Verif.Props.C59
import Verif.Props.C60
import Verif.Props.C61
import Verif.Props.C62
import Verif.Props.C63
import Verif.Props.C64
import Verif.Props.C65
import Verif.Props.C66
import Verif.Props.C67
import Verif.Props.C68
import Verif.Props.C69
import Verif.Props.C70
import Verif.Props.C71
import Verif.Props.C72
import Verif.Props.C73
import Verif.Props.C74
import Verif.Props.C75
import Verif.Props.C76
import Verif.Props.C77
import Verif.Props.C78
import Verif.Props.C79
import Verif.Props.C80
import Verif.Props.C81
import Verif.Props.C82
import Verif.Props.C83
import Verif.Props.C84
import Verif.Props.C85
import Verif.Props.C86
import Verif.Props.C87
import Verif.Props.C88
import Verif.Props.C89
import Verif.Props.C90
import Verif.Props.C91
import Verif.Props.C92
import Verif.Props.C93
import Verif.Props.C94
import Verif.Props.C95
import Verif.Props.C96
import Verif.Props.C97
import Verif.Props.C98
import Verif.Props.C99
import Verif.Py
