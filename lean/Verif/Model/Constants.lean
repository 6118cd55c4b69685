import Verif.Model.Rust

/-! # `src/constants.rs`: values for the fields of the delivery system descriptors -/

namespace Mpegts.Constants

/-- `POSITION_WEST`, src/constants.rs:8. -/
def POSITION_WEST : UInt8 := 0

/-- `POSITION_EAST`, src/constants.rs:9. -/
def POSITION_EAST : UInt8 := 1

/-- `POLARIZATION_H`, src/constants.rs:11. -/
def POLARIZATION_H : UInt8 := 0b00

/-- `POLARIZATION_V`, src/constants.rs:12. -/
def POLARIZATION_V : UInt8 := 0b01

/-- `POLARIZATION_L`, src/constants.rs:13. -/
def POLARIZATION_L : UInt8 := 0b10

/-- `POLARIZATION_R`, src/constants.rs:14. -/
def POLARIZATION_R : UInt8 := 0b11

/-- `ROF_A035`, src/constants.rs:16. -/
def ROF_A035 : UInt8 := 0b00

/-- `ROF_A025`, src/constants.rs:17. -/
def ROF_A025 : UInt8 := 0b01

/-- `ROF_A020`, src/constants.rs:18. -/
def ROF_A020 : UInt8 := 0b10

/-- `MODULATION_DVB_C_NOT_DEFINED`, src/constants.rs:20. -/
def MODULATION_DVB_C_NOT_DEFINED : UInt8 := 0x00

/-- `MODULATION_DVB_C_16_QAM`, src/constants.rs:21. -/
def MODULATION_DVB_C_16_QAM : UInt8 := 0x01

/-- `MODULATION_DVB_C_32_QAM`, src/constants.rs:22. -/
def MODULATION_DVB_C_32_QAM : UInt8 := 0x02

/-- `MODULATION_DVB_C_64_QAM`, src/constants.rs:23. -/
def MODULATION_DVB_C_64_QAM : UInt8 := 0x03

/-- `MODULATION_DVB_C_128_QAM`, src/constants.rs:24. -/
def MODULATION_DVB_C_128_QAM : UInt8 := 0x04

/-- `MODULATION_DVB_C_256_QAM`, src/constants.rs:25. -/
def MODULATION_DVB_C_256_QAM : UInt8 := 0x05

/-- `MODULATION_DVB_S_AUTO`, src/constants.rs:27. -/
def MODULATION_DVB_S_AUTO : UInt8 := 0b00

/-- `MODULATION_DVB_S_QPSK`, src/constants.rs:28. -/
def MODULATION_DVB_S_QPSK : UInt8 := 0b01

/-- `MODULATION_DVB_S_8PSK`, src/constants.rs:29. -/
def MODULATION_DVB_S_8PSK : UInt8 := 0b10

/-- `MODULATION_DVB_S_16QAM`, src/constants.rs:30. -/
def MODULATION_DVB_S_16QAM : UInt8 := 0b11

/-- `MODULATION_DVB_T_QPSK`, src/constants.rs:32. -/
def MODULATION_DVB_T_QPSK : UInt8 := 0b00

/-- `MODULATION_DVB_T_16QAM`, src/constants.rs:33. -/
def MODULATION_DVB_T_16QAM : UInt8 := 0b01

/-- `MODULATION_DVB_T_64QAM`, src/constants.rs:34. -/
def MODULATION_DVB_T_64QAM : UInt8 := 0b10

/-- `FEC_OUTER_NOT_DEFINED`, src/constants.rs:36. -/
def FEC_OUTER_NOT_DEFINED : UInt8 := 0b0000

/-- `FEC_OUTER_NO_CODING`, src/constants.rs:37. -/
def FEC_OUTER_NO_CODING : UInt8 := 0b0001

/-- `FEC_OUTER_RS`, src/constants.rs:38. -/
def FEC_OUTER_RS : UInt8 := 0b0001

/-- `FEC_NOT_DEFINED`, src/constants.rs:40. -/
def FEC_NOT_DEFINED : UInt8 := 0b0000

/-- `FEC_1_2`, src/constants.rs:41. -/
def FEC_1_2 : UInt8 := 0b0001

/-- `FEC_2_3`, src/constants.rs:42. -/
def FEC_2_3 : UInt8 := 0b0010

/-- `FEC_3_4`, src/constants.rs:43. -/
def FEC_3_4 : UInt8 := 0b0011

/-- `FEC_5_6`, src/constants.rs:44. -/
def FEC_5_6 : UInt8 := 0b0100

/-- `FEC_7_8`, src/constants.rs:45. -/
def FEC_7_8 : UInt8 := 0b0101

/-- `FEC_8_9`, src/constants.rs:46. -/
def FEC_8_9 : UInt8 := 0b0110

/-- `FEC_3_5`, src/constants.rs:47. -/
def FEC_3_5 : UInt8 := 0b0111

/-- `FEC_4_5`, src/constants.rs:48. -/
def FEC_4_5 : UInt8 := 0b1000

/-- `FEC_9_10`, src/constants.rs:49. -/
def FEC_9_10 : UInt8 := 0b1001

/-- `FEC_NONE`, src/constants.rs:50. -/
def FEC_NONE : UInt8 := 0b1111

/-- `BANDWIDTH_DVB_T_8MHZ`, src/constants.rs:52. -/
def BANDWIDTH_DVB_T_8MHZ : UInt8 := 0b000

/-- `BANDWIDTH_DVB_T_7MHZ`, src/constants.rs:53. -/
def BANDWIDTH_DVB_T_7MHZ : UInt8 := 0b001

/-- `BANDWIDTH_DVB_T_6MHZ`, src/constants.rs:54. -/
def BANDWIDTH_DVB_T_6MHZ : UInt8 := 0b010

/-- `BANDWIDTH_DVB_T_5MHZ`, src/constants.rs:55. -/
def BANDWIDTH_DVB_T_5MHZ : UInt8 := 0b011

/-- `HIERARCHY_DVB_T_NON_NATIVE`, src/constants.rs:57. -/
def HIERARCHY_DVB_T_NON_NATIVE : UInt8 := 0b000

/-- `HIERARCHY_DVB_T_A1_NATIVE`, src/constants.rs:58. -/
def HIERARCHY_DVB_T_A1_NATIVE : UInt8 := 0b001

/-- `HIERARCHY_DVB_T_A2_NATIVE`, src/constants.rs:59. -/
def HIERARCHY_DVB_T_A2_NATIVE : UInt8 := 0b010

/-- `HIERARCHY_DVB_T_A4_NATIVE`, src/constants.rs:60. -/
def HIERARCHY_DVB_T_A4_NATIVE : UInt8 := 0b011

/-- `HIERARCHY_DVB_T_NON_IN_DEPTH`, src/constants.rs:61. -/
def HIERARCHY_DVB_T_NON_IN_DEPTH : UInt8 := 0b100

/-- `HIERARCHY_DVB_T_A1_IN_DEPTH`, src/constants.rs:62. -/
def HIERARCHY_DVB_T_A1_IN_DEPTH : UInt8 := 0b101

/-- `HIERARCHY_DVB_T_A2_IN_DEPTH`, src/constants.rs:63. -/
def HIERARCHY_DVB_T_A2_IN_DEPTH : UInt8 := 0b110

/-- `HIERARCHY_DVB_T_A4_IN_DEPTH`, src/constants.rs:64. -/
def HIERARCHY_DVB_T_A4_IN_DEPTH : UInt8 := 0b111

/-- `CODE_RATE_DVB_T_1_2`, src/constants.rs:66. -/
def CODE_RATE_DVB_T_1_2 : UInt8 := 0b000

/-- `CODE_RATE_DVB_T_2_3`, src/constants.rs:67. -/
def CODE_RATE_DVB_T_2_3 : UInt8 := 0b001

/-- `CODE_RATE_DVB_T_3_4`, src/constants.rs:68. -/
def CODE_RATE_DVB_T_3_4 : UInt8 := 0b010

/-- `CODE_RATE_DVB_T_5_6`, src/constants.rs:69. -/
def CODE_RATE_DVB_T_5_6 : UInt8 := 0b011

/-- `CODE_RATE_DVB_T_7_8`, src/constants.rs:70. -/
def CODE_RATE_DVB_T_7_8 : UInt8 := 0b100

/-- `GUARD_INTERVAL_1_32`, src/constants.rs:72. -/
def GUARD_INTERVAL_1_32 : UInt8 := 0b00

/-- `GUARD_INTERVAL_1_16`, src/constants.rs:73. -/
def GUARD_INTERVAL_1_16 : UInt8 := 0b01

/-- `GUARD_INTERVAL_1_8`, src/constants.rs:74. -/
def GUARD_INTERVAL_1_8 : UInt8 := 0b10

/-- `GUARD_INTERVAL_1_4`, src/constants.rs:75. -/
def GUARD_INTERVAL_1_4 : UInt8 := 0b11

/-- `TRANSMISSION_MODE_2K`, src/constants.rs:77. -/
def TRANSMISSION_MODE_2K : UInt8 := 0b00

/-- `TRANSMISSION_MODE_8K`, src/constants.rs:78. -/
def TRANSMISSION_MODE_8K : UInt8 := 0b01

/-- `TRANSMISSION_MODE_4K`, src/constants.rs:79. -/
def TRANSMISSION_MODE_4K : UInt8 := 0b10

end Mpegts.Constants
