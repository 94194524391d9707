import Verif.Model.Header
import Verif.Model.Mavlink
import Verif.Lemmas.Struct
import Verif.Lemmas.Wire
import Verif.Lemmas.Crc
import Verif.Lemmas.Decode
import Verif.Props.C01_C02
import Verif.Props.C03_C05
import Verif.Props.C06_C07
import Verif.Props.C10_C13
import Verif.Props.C08_C09
import Verif.Lemmas.Segment
import Verif.Lemmas.Packed
import Verif.Props.C16_C24
import Verif.Lemmas.Stream
import Verif.Props.C14_C15
import Verif.Lemmas.Fields
import Verif.Props.C25_C26
import Verif.Lemmas.Window
import Verif.Props.C27_C28
import Verif.Spec.Gauss
import Verif.Lemmas.Gauss
import Verif.Props.C29
import Verif.Lemmas.Layout
import Verif.Props.C31_C32
import Verif.Props.C30
import Verif.Props.C35_C36
import Verif.Props.C33
import Verif.Props.C69
import Verif.Props.C34
import Verif.Model.InfoTheory
import Verif.Spec.Prob
import Verif.Props.C47_C50
import Verif.Model.Clustering
import Verif.Spec.Cluster
import Verif.Props.C37_C40
import Verif.Props.C38_C39
import Verif.Model.Dude
import Verif.Spec.Dude
import Verif.Props.C41_C44
import Verif.Model.Emle
import Verif.Spec.Emle
import Verif.Props.C45_C46
import Verif.Model.Bmm
import Verif.Props.C51_C52
import Verif.Model.Decoder
import Verif.Model.EntropyDecoder
import Verif.Model.EntropyRun
import Verif.Spec.Decoder
import Verif.Lemmas.Decoder
import Verif.Props.C53_C56
import Verif.Model.Turbo
import Verif.Model.Perf
import Verif.Model.Runs
import Verif.Spec.Turbo
import Verif.Props.C58_C60
import Verif.Props.C58_Raising
import Verif.Props.C61_C63
import Verif.Props.C66_C67
import Verif.Model.MavDecoder
import Verif.Spec.MavDecoder
import Verif.Props.C57
import Verif.Model.BitwiseDecoder
import Verif.Spec.Bitwise
import Verif.Props.C64
import Verif.Model.WeightedDecoder
import Verif.Spec.Weighted
import Verif.Props.C65
import Verif.Props.C71
import Verif.Model.CombinedDecoder
import Verif.Props.C68
import Verif.Model.DudeDecoder
import Verif.Spec.DudeDecoder
import Verif.Props.C72
import Verif.Model.Analysis
import Verif.Spec.Analysis
import Verif.Props.C73_C74
import Verif.Model.Signing
import Verif.Model.Wire2
import Verif.Model.Callbacks
import Verif.Spec.Signing
import Verif.Props.C75
import Verif.Model.MsgEq
import Verif.Model.Float64
import Verif.Spec.MsgEq
import Verif.Lemmas.Float32
import Verif.Lemmas.Utf8
import Verif.Props.C76
import Verif.Model.Recording
import Verif.Spec.Recording
import Verif.Props.C77
import Verif.Props.C78
import Verif.Props.C79
import Verif.Spec.Rectify
import Verif.Props.C80
import Verif.Model.Simulation
import Verif.Spec.Simulation
import Verif.Props.C81
import Verif.Props.C82
import Verif.Model.DecodingRuns
import Verif.Spec.Runs
import Verif.Props.C83
import Verif.Props.C84
import Verif.Spec.Unified
import Verif.Props.C85
import Verif.Spec.Likelihood
import Verif.Props.C86
import Verif.Model.Minimal
import Verif.Props.C87
import Verif.Model.Awgn
import Verif.Spec.Awgn
import Verif.Props.C88
import Verif.Model.ClusterRun
import Verif.Spec.ClusterRun
import Verif.Props.C89
import Verif.Spec.BitFlip
import Verif.Props.C90
import Verif.Model.WrapperTable
import Verif.Model.Wrappers
import Verif.Spec.Wrappers
import Verif.Props.C91
import Verif.Model.ShipLog
import Verif.Spec.ShipLog
import Verif.Props.C92
import Verif.Model.Train
import Verif.Spec.Train
import Verif.Props.C93
import Verif.Model.NoisyBernoulli
import Verif.Spec.NoisyBernoulli
import Verif.Props.C94
import Verif.Model.Trials
import Verif.Spec.Trials
import Verif.Props.C95
import Verif.Model.Denoisers
import Verif.Spec.Denoisers
import Verif.Props.C96
import Verif.Model.Unify
import Verif.Spec.Unify
import Verif.Props.C97
import Verif.Model.Capacity
import Verif.Spec.Capacity
import Verif.Props.C98
import Verif.Model.Averaged
import Verif.Spec.Averaged
import Verif.Props.C99
import Verif.Model.MergeDist
import Verif.Spec.MergeDist
import Verif.Props.C100
import Verif.Model.Command
import Verif.Model.CommandTables
import Verif.Spec.Command
import Verif.Props.C101
import Verif.Model.Studies
import Verif.Spec.Studies
import Verif.Props.C102
import Verif.Model.Pool
import Verif.Spec.Pool
import Verif.Props.C103
import Verif.Model.OldStudies
import Verif.Props.C104
import Verif.Model.CombinedDebug
import Verif.Props.C105
import Verif.Model.XmlTables
import Verif.Model.Enums
import Verif.Spec.XmlDefs
import Verif.Lemmas.XmlDefs
import Verif.Lemmas.NodupText
import Verif.Lemmas.XmlEnums
import Verif.Props.C106
import Verif.Model.Batch
import Verif.Spec.Batch
import Verif.Props.C107
import Verif.Model.Logging
import Verif.Spec.Logging
import Verif.Props.C108
import Verif.Model.MinimalTable
import Verif.Model.MinimalMethods
import Verif.Props.C109
import Verif.Props.C110
import Verif.Props.C111
import Verif.Props.C112
import Verif.Props.C113
import Verif.Props.C114
import Verif.Props.C115
import Verif.Props.C116
import Verif.Props.C117
import Verif.Props.C118
import Verif.Props.C119
import Verif.Props.C120
import Verif.Props.C121
import Verif.Props.C122
import Verif.Props.C123
import Verif.Props.C124
import Verif.Props.C125
import Verif.Props.C126
import Verif.Props.C127
import Verif.Props.C128
import Verif.Props.C29P
import Verif.Props.C129
import Verif.Props.C130
import Verif.Props.C131
import Verif.Props.C132
import Verif.Props.C133
import Verif.Props.C133_Settles
import Verif.Props.C134
import Verif.Props.C135
import Verif.Props.C136
import Verif.Props.C137
import Verif.Props.C138
import Verif.Props.C139
import Verif.Props.C140
import Verif.Props.C141
import Verif.Props.C142
import Verif.Props.C143
import Verif.Props.C144_Mixture
import Verif.Spec.Kinds
import Verif.Props.C145
import Verif.Props.C145_Weights
import Verif.Props.C145_Noise
import Verif.Spec.Repair
import Verif.Props.C146
import Verif.Props.C147
import Verif.Props.C147_Loop
import Verif.Props.C148
import Verif.Props.C149
import Verif.Props.C150
import Verif.Props.C151
import Verif.Props.C152
import Verif.Props.C153
import Verif.Props.C154
import Verif.Props.C155
import Verif.Props.C156
import Verif.Props.C157
import Verif.Props.C158
import Verif.Props.C159
import Verif.Props.C160
import Verif.Props.C161
