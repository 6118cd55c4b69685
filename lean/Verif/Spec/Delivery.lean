/-! # Codes of the delivery system descriptors (EN 300 468 §6.2.13) -/

namespace Spec.Delivery

/-- orbital position: east or west of Greenwich (§6.2.13.2). -/
inductive Direction | west | east
/-- Table 38: polarisation. -/
inductive Polarization | horizontal | vertical | circularLeft | circularRight
/-- Table 39: roll-off factor α (in hundredths). -/
inductive RollOff | alpha35 | alpha25 | alpha20
/-- Table 41: modulation type for satellite. -/
inductive SatelliteModulation | auto | qpsk | psk8 | qam16
/-- Table 35: modulation schemes for cable. -/
inductive CableModulation | undefined | qam16 | qam32 | qam64 | qam128 | qam256
/-- Table 34: outer FEC scheme. -/
inductive FecOuter | undefined | noOuterFec | reedSolomon204_188
/-- Table 36: inner FEC scheme, as convolutional code rate. -/
inductive FecInner | undefined | r1_2 | r2_3 | r3_4 | r5_6 | r7_8 | r8_9 | r3_5 | r4_5 | r9_10 | noCoding
/-- Table 43: bandwidth in MHz. -/
inductive Bandwidth | mhz8 | mhz7 | mhz6 | mhz5
/-- Table 46: constellation. -/
inductive Constellation | qpsk | qam16 | qam64
/-- Table 47: hierarchy; native or in-depth interleaver. -/
inductive Hierarchy | noneNative | alpha1Native | alpha2Native | alpha4Native
  | noneInDepth | alpha1InDepth | alpha2InDepth | alpha4InDepth
/-- Table 48: code rate. -/
inductive CodeRate | r1_2 | r2_3 | r3_4 | r5_6 | r7_8
/-- Table 49: guard interval. -/
inductive Guard | g1_32 | g1_16 | g1_8 | g1_4
/-- Table 50: transmission mode. -/
inductive Mode | k2 | k8 | k4

def Direction.code : Direction → Nat | west => 0 | east => 1
def Polarization.code : Polarization → Nat | horizontal => 0b00 | vertical => 0b01 | circularLeft => 0b10 | circularRight => 0b11
def RollOff.code : RollOff → Nat | alpha35 => 0b00 | alpha25 => 0b01 | alpha20 => 0b10
def SatelliteModulation.code : SatelliteModulation → Nat | auto => 0b00 | qpsk => 0b01 | psk8 => 0b10 | qam16 => 0b11
def CableModulation.code : CableModulation → Nat
  | undefined => 0 | qam16 => 1 | qam32 => 2 | qam64 => 3 | qam128 => 4 | qam256 => 5
def FecOuter.code : FecOuter → Nat | undefined => 0b0000 | noOuterFec => 0b0001 | reedSolomon204_188 => 0b0010
def FecInner.code : FecInner → Nat
  | undefined => 0b0000 | r1_2 => 0b0001 | r2_3 => 0b0010 | r3_4 => 0b0011 | r5_6 => 0b0100 | r7_8 => 0b0101
  | r8_9 => 0b0110 | r3_5 => 0b0111 | r4_5 => 0b1000 | r9_10 => 0b1001 | noCoding => 0b1111
def Bandwidth.code : Bandwidth → Nat | mhz8 => 0b000 | mhz7 => 0b001 | mhz6 => 0b010 | mhz5 => 0b011
def Constellation.code : Constellation → Nat | qpsk => 0b00 | qam16 => 0b01 | qam64 => 0b10
def Hierarchy.code : Hierarchy → Nat
  | noneNative => 0b000 | alpha1Native => 0b001 | alpha2Native => 0b010 | alpha4Native => 0b011
  | noneInDepth => 0b100 | alpha1InDepth => 0b101 | alpha2InDepth => 0b110 | alpha4InDepth => 0b111
def CodeRate.code : CodeRate → Nat | r1_2 => 0b000 | r2_3 => 0b001 | r3_4 => 0b010 | r5_6 => 0b011 | r7_8 => 0b100
def Guard.code : Guard → Nat | g1_32 => 0b00 | g1_16 => 0b01 | g1_8 => 0b10 | g1_4 => 0b11
def Mode.code : Mode → Nat | k2 => 0b00 | k8 => 0b01 | k4 => 0b10

end Spec.Delivery
