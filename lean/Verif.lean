import Verif.Model.Bcd
import Verif.Model.Bits
import Verif.Model.Bytes
import Verif.Model.Cbr
import Verif.Model.Chars
import Verif.Model.Constants
import Verif.Model.Crc32
import Verif.Model.Debug
import Verif.Model.DebugText
import Verif.Model.Desc
import Verif.Model.Eit
import Verif.Model.Lang
import Verif.Model.Nit
import Verif.Model.Own
import Verif.Model.OwnTable
import Verif.Model.Pat
import Verif.Model.Pcr
import Verif.Model.Pes
import Verif.Model.Pmt
import Verif.Model.Psi
import Verif.Model.Reader
import Verif.Model.ReaderBox
import Verif.Model.ReaderOn
import Verif.Model.Rust
import Verif.Model.Sdt
import Verif.Model.Tdt
import Verif.Model.Text
import Verif.Model.TextData
import Verif.Model.TextEq
import Verif.Model.Tool
import Verif.Model.Ts
import Verif.Spec.AnySource
import Verif.Spec.AnyValue
import Verif.Spec.Bcd
import Verif.Spec.ByName
import Verif.Spec.Bytes
import Verif.Spec.Calendar
import Verif.Spec.Cbr
import Verif.Spec.Channels
import Verif.Spec.Clock
import Verif.Spec.CodePage
import Verif.Spec.Codes
import Verif.Spec.Crc
import Verif.Spec.Damage
import Verif.Spec.DebugText
import Verif.Spec.Delivery
import Verif.Spec.Descriptor
import Verif.Spec.Discover
import Verif.Spec.Drain
import Verif.Spec.Elapsed
import Verif.Spec.Ends
import Verif.Spec.Es
import Verif.Spec.Feed
import Verif.Spec.Fit
import Verif.Spec.Foreign
import Verif.Spec.ForeignName
import Verif.Spec.ForeignNow
import Verif.Spec.ForeignText
import Verif.Spec.Guide
import Verif.Spec.Iso639
import Verif.Spec.Listen
import Verif.Spec.ListenPacked
import Verif.Spec.LocalTime
import Verif.Spec.Loss
import Verif.Spec.Mapping
import Verif.Spec.MappingAny
import Verif.Spec.Multiplex
import Verif.Spec.Names
import Verif.Spec.Now
import Verif.Spec.Oversize
import Verif.Spec.Own
import Verif.Spec.OwnTable
import Verif.Spec.PackedStream
import Verif.Spec.Packet
import Verif.Spec.Rate
import Verif.Spec.ReadBack
import Verif.Spec.Reader
import Verif.Spec.Reading
import Verif.Spec.ReadingTables
import Verif.Spec.Reassembly
import Verif.Spec.Receiver
import Verif.Spec.Remap
import Verif.Spec.Schedule
import Verif.Spec.ScheduleAny
import Verif.Spec.Section
import Verif.Spec.Sendable
import Verif.Spec.Sends
import Verif.Spec.SharedPid
import Verif.Spec.Shift
import Verif.Spec.Spill
import Verif.Spec.Splice
import Verif.Spec.Stack
import Verif.Spec.StreamType
import Verif.Spec.Tables
import Verif.Spec.TakeBack
import Verif.Spec.Text
import Verif.Spec.Tracks
import Verif.Spec.Tune
import Verif.Spec.Utf8
import Verif.Spec.Utf8Bytes
import Verif.Spec.Watch
import Verif.Spec.WidePacket
import Verif.Lemmas.Basic
import Verif.Lemmas.Bcd
import Verif.Lemmas.Bits
import Verif.Lemmas.Bytes
import Verif.Lemmas.Clock
import Verif.Lemmas.Crc
import Verif.Lemmas.CrcApart
import Verif.Lemmas.CrcPowers
import Verif.Lemmas.DebugSays
import Verif.Lemmas.DebugText
import Verif.Lemmas.Desc
import Verif.Lemmas.Ends
import Verif.Lemmas.EndsText
import Verif.Lemmas.Feed
import Verif.Lemmas.Oversize
import Verif.Lemmas.PackedStream
import Verif.Lemmas.PackedUnique
import Verif.Lemmas.PsiCheck
import Verif.Lemmas.PsiDemux
import Verif.Lemmas.PsiDemuxWide
import Verif.Lemmas.PsiMux
import Verif.Lemmas.Receiver
import Verif.Lemmas.TableLoops
import Verif.Lemmas.Tables
import Verif.Lemmas.Time
import Verif.Lemmas.Ts
import Verif.Lemmas.Utf8
import Verif.Lemmas.Verdict
import Verif.Props.AnyDesc
import Verif.Props.C01
import Verif.Props.C02_C05
import Verif.Props.C06_C11
import Verif.Props.C100
import Verif.Props.C101
import Verif.Props.C102
import Verif.Props.C103
import Verif.Props.C103Debug
import Verif.Props.C104
import Verif.Props.C105
import Verif.Props.C106
import Verif.Props.C107
import Verif.Props.C108
import Verif.Props.C109
import Verif.Props.C110
import Verif.Props.C110Eit
import Verif.Props.C111
import Verif.Props.C112
import Verif.Props.C113
import Verif.Props.C114
import Verif.Props.C115
import Verif.Props.C116
import Verif.Props.C117
import Verif.Props.C118
import Verif.Props.C119
import Verif.Props.C119Any
import Verif.Props.C120
import Verif.Props.C120Bytes
import Verif.Props.C121
import Verif.Props.C122
import Verif.Props.C123
import Verif.Props.C124
import Verif.Props.C125
import Verif.Props.C126
import Verif.Props.C127
import Verif.Props.C128
import Verif.Props.C129
import Verif.Props.C129Any
import Verif.Props.C129Eit
import Verif.Props.C129More
import Verif.Props.C12_C15
import Verif.Props.C130
import Verif.Props.C131
import Verif.Props.C132
import Verif.Props.C133
import Verif.Props.C134
import Verif.Props.C135
import Verif.Props.C136
import Verif.Props.C137
import Verif.Props.C137Early
import Verif.Props.C137Schedule
import Verif.Props.C138
import Verif.Props.C139
import Verif.Props.C140
import Verif.Props.C141
import Verif.Props.C142
import Verif.Props.C143
import Verif.Props.C144
import Verif.Props.C145
import Verif.Props.C146
import Verif.Props.C147
import Verif.Props.C148
import Verif.Props.C149
import Verif.Props.C150
import Verif.Props.C151
import Verif.Props.C152
import Verif.Props.C153
import Verif.Props.C154
import Verif.Props.C155
import Verif.Props.C156
import Verif.Props.C156Foreign
import Verif.Props.C157
import Verif.Props.C158
import Verif.Props.C159
import Verif.Props.C160
import Verif.Props.C161
import Verif.Props.C162
import Verif.Props.C163
import Verif.Props.C164
import Verif.Props.C165
import Verif.Props.C166
import Verif.Props.C16_C18
import Verif.Props.C19_C22
import Verif.Props.C23_C26
import Verif.Props.C27_C28
import Verif.Props.C29_C30
import Verif.Props.C30Small
import Verif.Props.C31
import Verif.Props.C32_C33
import Verif.Props.C34_C39
import Verif.Props.C36
import Verif.Props.C38
import Verif.Props.C40_C42
import Verif.Props.C41_C48
import Verif.Props.C49_C52
import Verif.Props.C55Exact
import Verif.Props.C60Any
import Verif.Props.C66Release
import Verif.Props.C69
import Verif.Props.C70_C72
import Verif.Props.C73_C74
import Verif.Props.C75
import Verif.Props.C75Text
import Verif.Props.C76
import Verif.Props.C78_C79
import Verif.Props.C80
import Verif.Props.C81
import Verif.Props.C83_C86
import Verif.Props.C87_C90
import Verif.Props.C91
import Verif.Props.C93
import Verif.Props.C94
import Verif.Props.C95
import Verif.Props.C96
import Verif.Props.C96Schedule
import Verif.Props.C97
import Verif.Props.C98
import Verif.Props.C99
import Verif.Props.DescWire
import Verif.Props.Eit
import Verif.Props.EitSchedule
import Verif.Props.Nit
import Verif.Props.Pat
import Verif.Props.Pmt
import Verif.Props.Sdt
import Verif.Props.Sent
import Verif.Props.Tdt
import Verif.Examples.C02_C22
import Verif.Examples.C100_C112
import Verif.Examples.C113_C122
import Verif.Examples.C156
import Verif.Examples.C23_C39
import Verif.Examples.C40_C52
import Verif.Examples.C75_C82
import Verif.Examples.C87_C99
import Verif.Examples.Sent
import Verif.Examples.Tables
import Verif.Tests.Fidelity
import Verif.Tests.Vectors
