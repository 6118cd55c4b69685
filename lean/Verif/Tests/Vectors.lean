import Verif.Model.Rust

/-! Test vectors copied from /repo/tests/data/mod.rs and /repo/tests/psi.rs (generated). -/

namespace Mpegts.Tests

/-- `PAT`, tests/data/mod.rs -/
def PAT : List UInt8 := [
  0x47, 0x40, 0x00, 0x10, 0x00, 0x00, 0xB0, 0x25, 0x00, 0x01, 0xC3, 0x00, 0x00, 0x00, 0x00, 0xE0,
  0x10, 0x00, 0x01, 0xE4, 0x07, 0x00, 0x02, 0xE4, 0x08, 0x00, 0x03, 0xE4, 0x09, 0x00, 0x04, 0xE4,
  0x0A, 0x00, 0x05, 0xE4, 0x0B, 0x00, 0x06, 0xE4, 0x0C, 0xB2, 0xD1, 0xB8, 0xDE, 0xFF, 0xFF, 0xFF,
  0xFF, 0xFF, 0xFF, 0xFF, 0xFF, 0xFF, 0xFF, 0xFF, 0xFF, 0xFF, 0xFF, 0xFF, 0xFF, 0xFF, 0xFF, 0xFF,
  0xFF, 0xFF, 0xFF, 0xFF, 0xFF, 0xFF, 0xFF, 0xFF, 0xFF, 0xFF, 0xFF, 0xFF, 0xFF, 0xFF, 0xFF, 0xFF,
  0xFF, 0xFF, 0xFF, 0xFF, 0xFF, 0xFF, 0xFF, 0xFF, 0xFF, 0xFF, 0xFF, 0xFF, 0xFF, 0xFF, 0xFF, 0xFF,
  0xFF, 0xFF, 0xFF, 0xFF, 0xFF, 0xFF, 0xFF, 0xFF, 0xFF, 0xFF, 0xFF, 0xFF, 0xFF, 0xFF, 0xFF, 0xFF,
  0xFF, 0xFF, 0xFF, 0xFF, 0xFF, 0xFF, 0xFF, 0xFF, 0xFF, 0xFF, 0xFF, 0xFF, 0xFF, 0xFF, 0xFF, 0xFF,
  0xFF, 0xFF, 0xFF, 0xFF, 0xFF, 0xFF, 0xFF, 0xFF, 0xFF, 0xFF, 0xFF, 0xFF, 0xFF, 0xFF, 0xFF, 0xFF,
  0xFF, 0xFF, 0xFF, 0xFF, 0xFF, 0xFF, 0xFF, 0xFF, 0xFF, 0xFF, 0xFF, 0xFF, 0xFF, 0xFF, 0xFF, 0xFF,
  0xFF, 0xFF, 0xFF, 0xFF, 0xFF, 0xFF, 0xFF, 0xFF, 0xFF, 0xFF, 0xFF, 0xFF, 0xFF, 0xFF, 0xFF, 0xFF,
  0xFF, 0xFF, 0xFF, 0xFF, 0xFF, 0xFF, 0xFF, 0xFF, 0xFF, 0xFF, 0xFF, 0xFF]

/-- `PMT`, tests/data/mod.rs -/
def PMT : List UInt8 := [
  0x47, 0x41, 0x16, 0x10, 0x00, 0x02, 0xB0, 0x33, 0xC5, 0x17, 0xC3, 0x00, 0x00, 0xE9, 0x0E, 0xF0,
  0x00, 0x02, 0xE9, 0x0E, 0xF0, 0x0E, 0x0E, 0x03, 0xC1, 0x2E, 0xBC, 0x09, 0x04, 0x09, 0x63, 0xE5,
  0x01, 0x52, 0x01, 0x01, 0x04, 0xE9, 0x0F, 0xF0, 0x0E, 0x0E, 0x03, 0xC1, 0x2E, 0xBC, 0x0A, 0x04,
  0x65, 0x6E, 0x67, 0x01, 0x52, 0x01, 0x02, 0x06, 0x1B, 0x38, 0x6A, 0xFF, 0xFF, 0xFF, 0xFF, 0xFF,
  0xFF, 0xFF, 0xFF, 0xFF, 0xFF, 0xFF, 0xFF, 0xFF, 0xFF, 0xFF, 0xFF, 0xFF, 0xFF, 0xFF, 0xFF, 0xFF,
  0xFF, 0xFF, 0xFF, 0xFF, 0xFF, 0xFF, 0xFF, 0xFF, 0xFF, 0xFF, 0xFF, 0xFF, 0xFF, 0xFF, 0xFF, 0xFF,
  0xFF, 0xFF, 0xFF, 0xFF, 0xFF, 0xFF, 0xFF, 0xFF, 0xFF, 0xFF, 0xFF, 0xFF, 0xFF, 0xFF, 0xFF, 0xFF,
  0xFF, 0xFF, 0xFF, 0xFF, 0xFF, 0xFF, 0xFF, 0xFF, 0xFF, 0xFF, 0xFF, 0xFF, 0xFF, 0xFF, 0xFF, 0xFF,
  0xFF, 0xFF, 0xFF, 0xFF, 0xFF, 0xFF, 0xFF, 0xFF, 0xFF, 0xFF, 0xFF, 0xFF, 0xFF, 0xFF, 0xFF, 0xFF,
  0xFF, 0xFF, 0xFF, 0xFF, 0xFF, 0xFF, 0xFF, 0xFF, 0xFF, 0xFF, 0xFF, 0xFF, 0xFF, 0xFF, 0xFF, 0xFF,
  0xFF, 0xFF, 0xFF, 0xFF, 0xFF, 0xFF, 0xFF, 0xFF, 0xFF, 0xFF, 0xFF, 0xFF, 0xFF, 0xFF, 0xFF, 0xFF,
  0xFF, 0xFF, 0xFF, 0xFF, 0xFF, 0xFF, 0xFF, 0xFF, 0xFF, 0xFF, 0xFF, 0xFF]

/-- `NIT_DVBS`, tests/data/mod.rs -/
def NIT_DVBS : List UInt8 := [
  0x47, 0x40, 0x10, 0x1F, 0x00, 0x40, 0xF0, 0x85, 0x00, 0x55, 0xD7, 0x00, 0x00, 0xF0, 0x00, 0xF0,
  0x78, 0x20, 0xD0, 0x01, 0x3E, 0xF0, 0x13, 0x43, 0x0B, 0x01, 0x23, 0x80, 0x00, 0x01, 0x30, 0xA1,
  0x02, 0x75, 0x00, 0x03, 0x83, 0x04, 0x0B, 0xC6, 0xC0, 0x2D, 0x31, 0x38, 0x01, 0x3E, 0xF0, 0x0D,
  0x43, 0x0B, 0x01, 0x10, 0x34, 0x00, 0x01, 0x30, 0xA1, 0x02, 0x75, 0x00, 0x03, 0x02, 0xBC, 0x01,
  0x3E, 0xF0, 0x0D, 0x43, 0x0B, 0x01, 0x13, 0x17, 0x00, 0x01, 0x30, 0xA1, 0x02, 0x75, 0x00, 0x03,
  0x22, 0xC4, 0x01, 0x3E, 0xF0, 0x0D, 0x43, 0x0B, 0x01, 0x24, 0x76, 0x00, 0x01, 0x30, 0x86, 0x02,
  0x99, 0x00, 0x03, 0x24, 0xB8, 0x01, 0x3E, 0xF0, 0x0D, 0x43, 0x0B, 0x01, 0x25, 0x97, 0x00, 0x01,
  0x30, 0xA1, 0x02, 0x75, 0x00, 0x03, 0x3C, 0xF0, 0x01, 0x3E, 0xF0, 0x0D, 0x43, 0x0B, 0x01, 0x16,
  0x23, 0x00, 0x01, 0x30, 0xA1, 0x02, 0x75, 0x00, 0x03, 0x1F, 0x81, 0x43, 0x25, 0xFF, 0xFF, 0xFF,
  0xFF, 0xFF, 0xFF, 0xFF, 0xFF, 0xFF, 0xFF, 0xFF, 0xFF, 0xFF, 0xFF, 0xFF, 0xFF, 0xFF, 0xFF, 0xFF,
  0xFF, 0xFF, 0xFF, 0xFF, 0xFF, 0xFF, 0xFF, 0xFF, 0xFF, 0xFF, 0xFF, 0xFF, 0xFF, 0xFF, 0xFF, 0xFF,
  0xFF, 0xFF, 0xFF, 0xFF, 0xFF, 0xFF, 0xFF, 0xFF, 0xFF, 0xFF, 0xFF, 0xFF]

/-- `SDT`, tests/data/mod.rs -/
def SDT : List UInt8 := [
  0x47, 0x40, 0x11, 0x1A, 0x00, 0x42, 0xF0, 0xD5, 0x00, 0x01, 0xC3, 0x00, 0x00, 0x00, 0x01, 0xFF,
  0x00, 0x01, 0xFD, 0x80, 0x1D, 0x48, 0x1B, 0x01, 0x06, 0x41, 0x76, 0x61, 0x6C, 0x70, 0x61, 0x12,
  0x41, 0x76, 0x61, 0x6C, 0x70, 0x61, 0x31, 0x3A, 0x20, 0x4D, 0x50, 0x45, 0x47, 0x32, 0x20, 0x4D,
  0x48, 0x50, 0x00, 0x02, 0xFD, 0x80, 0x1F, 0x48, 0x1D, 0x01, 0x06, 0x41, 0x76, 0x61, 0x6C, 0x70,
  0x61, 0x14, 0x41, 0x76, 0x61, 0x6C, 0x70, 0x61, 0x32, 0x3A, 0x20, 0x4D, 0x50, 0x45, 0x47, 0x32,
  0x20, 0x4D, 0x48, 0x45, 0x47, 0x35, 0x00, 0x03, 0xFD, 0x80, 0x1F, 0x48, 0x1D, 0x01, 0x06, 0x41,
  0x76, 0x61, 0x6C, 0x70, 0x61, 0x14, 0x41, 0x76, 0x61, 0x6C, 0x70, 0x61, 0x33, 0x3A, 0x20, 0x4D,
  0x50, 0x45, 0x47, 0x32, 0x20, 0x48, 0x42, 0x42, 0x54, 0x56, 0x00, 0x04, 0xFD, 0x80, 0x1D, 0x48,
  0x1B, 0x01, 0x06, 0x41, 0x76, 0x61, 0x6C, 0x70, 0x61, 0x12, 0x41, 0x76, 0x61, 0x6C, 0x70, 0x61,
  0x34, 0x3A, 0x20, 0x4D, 0x50, 0x45, 0x47, 0x32, 0x20, 0x54, 0x58, 0x54, 0x00, 0x05, 0xFD, 0x80,
  0x18, 0x48, 0x16, 0x16, 0x06, 0x41, 0x76, 0x61, 0x6C, 0x70, 0x61, 0x0D, 0x41, 0x76, 0x61, 0x6C,
  0x70, 0x61, 0x35, 0x3A, 0x20, 0x48, 0x32, 0x36, 0x34, 0x00, 0x06, 0xFD, 0x47, 0x00, 0x11, 0x1B,
  0x80, 0x1B, 0x48, 0x19, 0x19, 0x06, 0x41, 0x76, 0x61, 0x6C, 0x70, 0x61, 0x10, 0x41, 0x76, 0x61,
  0x6C, 0x70, 0x61, 0x36, 0x3A, 0x20, 0x48, 0x44, 0x20, 0x48, 0x32, 0x36, 0x34, 0x51, 0x41, 0xE4,
  0x75, 0xFF, 0xFF, 0xFF, 0xFF, 0xFF, 0xFF, 0xFF, 0xFF, 0xFF, 0xFF, 0xFF, 0xFF, 0xFF, 0xFF, 0xFF,
  0xFF, 0xFF, 0xFF, 0xFF, 0xFF, 0xFF, 0xFF, 0xFF, 0xFF, 0xFF, 0xFF, 0xFF, 0xFF, 0xFF, 0xFF, 0xFF,
  0xFF, 0xFF, 0xFF, 0xFF, 0xFF, 0xFF, 0xFF, 0xFF, 0xFF, 0xFF, 0xFF, 0xFF, 0xFF, 0xFF, 0xFF, 0xFF,
  0xFF, 0xFF, 0xFF, 0xFF, 0xFF, 0xFF, 0xFF, 0xFF, 0xFF, 0xFF, 0xFF, 0xFF, 0xFF, 0xFF, 0xFF, 0xFF,
  0xFF, 0xFF, 0xFF, 0xFF, 0xFF, 0xFF, 0xFF, 0xFF, 0xFF, 0xFF, 0xFF, 0xFF, 0xFF, 0xFF, 0xFF, 0xFF,
  0xFF, 0xFF, 0xFF, 0xFF, 0xFF, 0xFF, 0xFF, 0xFF, 0xFF, 0xFF, 0xFF, 0xFF, 0xFF, 0xFF, 0xFF, 0xFF,
  0xFF, 0xFF, 0xFF, 0xFF, 0xFF, 0xFF, 0xFF, 0xFF, 0xFF, 0xFF, 0xFF, 0xFF, 0xFF, 0xFF, 0xFF, 0xFF,
  0xFF, 0xFF, 0xFF, 0xFF, 0xFF, 0xFF, 0xFF, 0xFF, 0xFF, 0xFF, 0xFF, 0xFF, 0xFF, 0xFF, 0xFF, 0xFF,
  0xFF, 0xFF, 0xFF, 0xFF, 0xFF, 0xFF, 0xFF, 0xFF, 0xFF, 0xFF, 0xFF, 0xFF, 0xFF, 0xFF, 0xFF, 0xFF,
  0xFF, 0xFF, 0xFF, 0xFF, 0xFF, 0xFF, 0xFF, 0xFF]

/-- `EIT_4E`, tests/data/mod.rs -/
def EIT_4E : List UInt8 := [
  0x47, 0x40, 0x12, 0x10, 0x00, 0x4E, 0xF0, 0xA7, 0x00, 0x06, 0xC3, 0x00, 0x00, 0x00, 0x01, 0x00,
  0x01, 0x00, 0x4E, 0x00, 0x01, 0xD9, 0x28, 0x00, 0x00, 0x00, 0x20, 0x00, 0x00, 0x80, 0x8C, 0x4D,
  0x8A, 0x69, 0x74, 0x61, 0x10, 0x48, 0x32, 0x36, 0x34, 0x20, 0x48, 0x44, 0x20, 0x31, 0x30, 0x38,
  0x30, 0x20, 0x32, 0x34, 0x70, 0x75, 0x65, 0x6C, 0x65, 0x6D, 0x65, 0x6E, 0x74, 0x61, 0x72, 0x79,
  0x20, 0x76, 0x69, 0x64, 0x65, 0x6F, 0x20, 0x62, 0x69, 0x74, 0x20, 0x72, 0x61, 0x74, 0x65, 0x20,
  0x69, 0x73, 0x20, 0x37, 0x2E, 0x32, 0x4D, 0x62, 0x70, 0x73, 0x2C, 0x20, 0x61, 0x75, 0x64, 0x69,
  0x6F, 0x20, 0x61, 0x63, 0x33, 0x20, 0x35, 0x2E, 0x31, 0x2C, 0x20, 0x6E, 0x6F, 0x74, 0x65, 0x3A,
  0x20, 0x32, 0x34, 0x70, 0x20, 0x69, 0x73, 0x20, 0x6E, 0x6F, 0x74, 0x20, 0x63, 0x75, 0x72, 0x72,
  0x65, 0x6E, 0x74, 0x6C, 0x79, 0x2F, 0x6F, 0x66, 0x66, 0x69, 0x63, 0x69, 0x61, 0x6C, 0x6C, 0x79,
  0x20, 0x73, 0x75, 0x70, 0x70, 0x6F, 0x72, 0x74, 0x65, 0x64, 0x20, 0x62, 0x79, 0x20, 0x44, 0x56,
  0x42, 0x20, 0x73, 0x74, 0x61, 0x6E, 0x64, 0x61, 0x72, 0x64, 0x73, 0x30, 0x82, 0xDB, 0x06, 0xFF,
  0xFF, 0xFF, 0xFF, 0xFF, 0xFF, 0xFF, 0xFF, 0xFF, 0xFF, 0xFF, 0xFF, 0xFF]

/-- `EIT_50`, tests/data/mod.rs -/
def EIT_50 : List UInt8 := [
  0x47, 0x40, 0x12, 0x14, 0x00, 0x50, 0xF0, 0x0F, 0x1C, 0xCF, 0xEB, 0x00, 0x38, 0x1C, 0xE8, 0x00,
  0x01, 0x00, 0x50, 0xE3, 0x38, 0xB2, 0xB8, 0xFF, 0xFF, 0xFF, 0xFF, 0xFF, 0xFF, 0xFF, 0xFF, 0xFF,
  0xFF, 0xFF, 0xFF, 0xFF, 0xFF, 0xFF, 0xFF, 0xFF, 0xFF, 0xFF, 0xFF, 0xFF, 0xFF, 0xFF, 0xFF, 0xFF,
  0xFF, 0xFF, 0xFF, 0xFF, 0xFF, 0xFF, 0xFF, 0xFF, 0xFF, 0xFF, 0xFF, 0xFF, 0xFF, 0xFF, 0xFF, 0xFF,
  0xFF, 0xFF, 0xFF, 0xFF, 0xFF, 0xFF, 0xFF, 0xFF, 0xFF, 0xFF, 0xFF, 0xFF, 0xFF, 0xFF, 0xFF, 0xFF,
  0xFF, 0xFF, 0xFF, 0xFF, 0xFF, 0xFF, 0xFF, 0xFF, 0xFF, 0xFF, 0xFF, 0xFF, 0xFF, 0xFF, 0xFF, 0xFF,
  0xFF, 0xFF, 0xFF, 0xFF, 0xFF, 0xFF, 0xFF, 0xFF, 0xFF, 0xFF, 0xFF, 0xFF, 0xFF, 0xFF, 0xFF, 0xFF,
  0xFF, 0xFF, 0xFF, 0xFF, 0xFF, 0xFF, 0xFF, 0xFF, 0xFF, 0xFF, 0xFF, 0xFF, 0xFF, 0xFF, 0xFF, 0xFF,
  0xFF, 0xFF, 0xFF, 0xFF, 0xFF, 0xFF, 0xFF, 0xFF, 0xFF, 0xFF, 0xFF, 0xFF, 0xFF, 0xFF, 0xFF, 0xFF,
  0xFF, 0xFF, 0xFF, 0xFF, 0xFF, 0xFF, 0xFF, 0xFF, 0xFF, 0xFF, 0xFF, 0xFF, 0xFF, 0xFF, 0xFF, 0xFF,
  0xFF, 0xFF, 0xFF, 0xFF, 0xFF, 0xFF, 0xFF, 0xFF, 0xFF, 0xFF, 0xFF, 0xFF, 0xFF, 0xFF, 0xFF, 0xFF,
  0xFF, 0xFF, 0xFF, 0xFF, 0xFF, 0xFF, 0xFF, 0xFF, 0xFF, 0xFF, 0xFF, 0xFF, 0x47, 0x40, 0x12, 0x15,
  0x00, 0x50, 0xF0, 0x0F, 0x1C, 0xCF, 0xEB, 0x08, 0x38, 0x1C, 0xE8, 0x00, 0x01, 0x08, 0x50, 0xBD,
  0xFC, 0x2C, 0xD4, 0xFF, 0xFF, 0xFF, 0xFF, 0xFF, 0xFF, 0xFF, 0xFF, 0xFF, 0xFF, 0xFF, 0xFF, 0xFF,
  0xFF, 0xFF, 0xFF, 0xFF, 0xFF, 0xFF, 0xFF, 0xFF, 0xFF, 0xFF, 0xFF, 0xFF, 0xFF, 0xFF, 0xFF, 0xFF,
  0xFF, 0xFF, 0xFF, 0xFF, 0xFF, 0xFF, 0xFF, 0xFF, 0xFF, 0xFF, 0xFF, 0xFF, 0xFF, 0xFF, 0xFF, 0xFF,
  0xFF, 0xFF, 0xFF, 0xFF, 0xFF, 0xFF, 0xFF, 0xFF, 0xFF, 0xFF, 0xFF, 0xFF, 0xFF, 0xFF, 0xFF, 0xFF,
  0xFF, 0xFF, 0xFF, 0xFF, 0xFF, 0xFF, 0xFF, 0xFF, 0xFF, 0xFF, 0xFF, 0xFF, 0xFF, 0xFF, 0xFF, 0xFF,
  0xFF, 0xFF, 0xFF, 0xFF, 0xFF, 0xFF, 0xFF, 0xFF, 0xFF, 0xFF, 0xFF, 0xFF, 0xFF, 0xFF, 0xFF, 0xFF,
  0xFF, 0xFF, 0xFF, 0xFF, 0xFF, 0xFF, 0xFF, 0xFF, 0xFF, 0xFF, 0xFF, 0xFF, 0xFF, 0xFF, 0xFF, 0xFF,
  0xFF, 0xFF, 0xFF, 0xFF, 0xFF, 0xFF, 0xFF, 0xFF, 0xFF, 0xFF, 0xFF, 0xFF, 0xFF, 0xFF, 0xFF, 0xFF,
  0xFF, 0xFF, 0xFF, 0xFF, 0xFF, 0xFF, 0xFF, 0xFF, 0xFF, 0xFF, 0xFF, 0xFF, 0xFF, 0xFF, 0xFF, 0xFF,
  0xFF, 0xFF, 0xFF, 0xFF, 0xFF, 0xFF, 0xFF, 0xFF, 0xFF, 0xFF, 0xFF, 0xFF, 0xFF, 0xFF, 0xFF, 0xFF,
  0xFF, 0xFF, 0xFF, 0xFF, 0xFF, 0xFF, 0xFF, 0xFF, 0x47, 0x40, 0x12, 0x16, 0x00, 0x50, 0xF0, 0x0F,
  0x1C, 0xCF, 0xEB, 0x10, 0x38, 0x1C, 0xE8, 0x00, 0x01, 0x10, 0x50, 0x5E, 0xB1, 0x8E, 0x60, 0xFF,
  0xFF, 0xFF, 0xFF, 0xFF, 0xFF, 0xFF, 0xFF, 0xFF, 0xFF, 0xFF, 0xFF, 0xFF, 0xFF, 0xFF, 0xFF, 0xFF,
  0xFF, 0xFF, 0xFF, 0xFF, 0xFF, 0xFF, 0xFF, 0xFF, 0xFF, 0xFF, 0xFF, 0xFF, 0xFF, 0xFF, 0xFF, 0xFF,
  0xFF, 0xFF, 0xFF, 0xFF, 0xFF, 0xFF, 0xFF, 0xFF, 0xFF, 0xFF, 0xFF, 0xFF, 0xFF, 0xFF, 0xFF, 0xFF,
  0xFF, 0xFF, 0xFF, 0xFF, 0xFF, 0xFF, 0xFF, 0xFF, 0xFF, 0xFF, 0xFF, 0xFF, 0xFF, 0xFF, 0xFF, 0xFF,
  0xFF, 0xFF, 0xFF, 0xFF, 0xFF, 0xFF, 0xFF, 0xFF, 0xFF, 0xFF, 0xFF, 0xFF, 0xFF, 0xFF, 0xFF, 0xFF,
  0xFF, 0xFF, 0xFF, 0xFF, 0xFF, 0xFF, 0xFF, 0xFF, 0xFF, 0xFF, 0xFF, 0xFF, 0xFF, 0xFF, 0xFF, 0xFF,
  0xFF, 0xFF, 0xFF, 0xFF, 0xFF, 0xFF, 0xFF, 0xFF, 0xFF, 0xFF, 0xFF, 0xFF, 0xFF, 0xFF, 0xFF, 0xFF,
  0xFF, 0xFF, 0xFF, 0xFF, 0xFF, 0xFF, 0xFF, 0xFF, 0xFF, 0xFF, 0xFF, 0xFF, 0xFF, 0xFF, 0xFF, 0xFF,
  0xFF, 0xFF, 0xFF, 0xFF, 0xFF, 0xFF, 0xFF, 0xFF, 0xFF, 0xFF, 0xFF, 0xFF, 0xFF, 0xFF, 0xFF, 0xFF,
  0xFF, 0xFF, 0xFF, 0xFF, 0xFF, 0xFF, 0xFF, 0xFF, 0xFF, 0xFF, 0xFF, 0xFF, 0xFF, 0xFF, 0xFF, 0xFF,
  0xFF, 0xFF, 0xFF, 0xFF, 0x47, 0x40, 0x12, 0x17, 0x00, 0x50, 0xF0, 0x0F, 0x1C, 0xCF, 0xEB, 0x18,
  0x38, 0x1C, 0xE8, 0x00, 0x01, 0x18, 0x50, 0x00, 0x75, 0x10, 0x0C, 0xFF, 0xFF, 0xFF, 0xFF, 0xFF,
  0xFF, 0xFF, 0xFF, 0xFF, 0xFF, 0xFF, 0xFF, 0xFF, 0xFF, 0xFF, 0xFF, 0xFF, 0xFF, 0xFF, 0xFF, 0xFF,
  0xFF, 0xFF, 0xFF, 0xFF, 0xFF, 0xFF, 0xFF, 0xFF, 0xFF, 0xFF, 0xFF, 0xFF, 0xFF, 0xFF, 0xFF, 0xFF,
  0xFF, 0xFF, 0xFF, 0xFF, 0xFF, 0xFF, 0xFF, 0xFF, 0xFF, 0xFF, 0xFF, 0xFF, 0xFF, 0xFF, 0xFF, 0xFF,
  0xFF, 0xFF, 0xFF, 0xFF, 0xFF, 0xFF, 0xFF, 0xFF, 0xFF, 0xFF, 0xFF, 0xFF, 0xFF, 0xFF, 0xFF, 0xFF,
  0xFF, 0xFF, 0xFF, 0xFF, 0xFF, 0xFF, 0xFF, 0xFF, 0xFF, 0xFF, 0xFF, 0xFF, 0xFF, 0xFF, 0xFF, 0xFF,
  0xFF, 0xFF, 0xFF, 0xFF, 0xFF, 0xFF, 0xFF, 0xFF, 0xFF, 0xFF, 0xFF, 0xFF, 0xFF, 0xFF, 0xFF, 0xFF,
  0xFF, 0xFF, 0xFF, 0xFF, 0xFF, 0xFF, 0xFF, 0xFF, 0xFF, 0xFF, 0xFF, 0xFF, 0xFF, 0xFF, 0xFF, 0xFF,
  0xFF, 0xFF, 0xFF, 0xFF, 0xFF, 0xFF, 0xFF, 0xFF, 0xFF, 0xFF, 0xFF, 0xFF, 0xFF, 0xFF, 0xFF, 0xFF,
  0xFF, 0xFF, 0xFF, 0xFF, 0xFF, 0xFF, 0xFF, 0xFF, 0xFF, 0xFF, 0xFF, 0xFF, 0xFF, 0xFF, 0xFF, 0xFF,
  0xFF, 0xFF, 0xFF, 0xFF, 0xFF, 0xFF, 0xFF, 0xFF, 0xFF, 0xFF, 0xFF, 0xFF, 0xFF, 0xFF, 0xFF, 0xFF,
  0x47, 0x40, 0x12, 0x18, 0x00, 0x50, 0xF0, 0x0F, 0x1C, 0xCF, 0xEB, 0x20, 0x38, 0x1C, 0xE8, 0x00,
  0x01, 0x20, 0x50, 0x9C, 0xEB, 0xD6, 0xBF, 0xFF, 0xFF, 0xFF, 0xFF, 0xFF, 0xFF, 0xFF, 0xFF, 0xFF,
  0xFF, 0xFF, 0xFF, 0xFF, 0xFF, 0xFF, 0xFF, 0xFF, 0xFF, 0xFF, 0xFF, 0xFF, 0xFF, 0xFF, 0xFF, 0xFF,
  0xFF, 0xFF, 0xFF, 0xFF, 0xFF, 0xFF, 0xFF, 0xFF, 0xFF, 0xFF, 0xFF, 0xFF, 0xFF, 0xFF, 0xFF, 0xFF,
  0xFF, 0xFF, 0xFF, 0xFF, 0xFF, 0xFF, 0xFF, 0xFF, 0xFF, 0xFF, 0xFF, 0xFF, 0xFF, 0xFF, 0xFF, 0xFF,
  0xFF, 0xFF, 0xFF, 0xFF, 0xFF, 0xFF, 0xFF, 0xFF, 0xFF, 0xFF, 0xFF, 0xFF, 0xFF, 0xFF, 0xFF, 0xFF,
  0xFF, 0xFF, 0xFF, 0xFF, 0xFF, 0xFF, 0xFF, 0xFF, 0xFF, 0xFF, 0xFF, 0xFF, 0xFF, 0xFF, 0xFF, 0xFF,
  0xFF, 0xFF, 0xFF, 0xFF, 0xFF, 0xFF, 0xFF, 0xFF, 0xFF, 0xFF, 0xFF, 0xFF, 0xFF, 0xFF, 0xFF, 0xFF,
  0xFF, 0xFF, 0xFF, 0xFF, 0xFF, 0xFF, 0xFF, 0xFF, 0xFF, 0xFF, 0xFF, 0xFF, 0xFF, 0xFF, 0xFF, 0xFF,
  0xFF, 0xFF, 0xFF, 0xFF, 0xFF, 0xFF, 0xFF, 0xFF, 0xFF, 0xFF, 0xFF, 0xFF, 0xFF, 0xFF, 0xFF, 0xFF,
  0xFF, 0xFF, 0xFF, 0xFF, 0xFF, 0xFF, 0xFF, 0xFF, 0xFF, 0xFF, 0xFF, 0xFF, 0xFF, 0xFF, 0xFF, 0xFF,
  0xFF, 0xFF, 0xFF, 0xFF, 0xFF, 0xFF, 0xFF, 0xFF, 0xFF, 0xFF, 0xFF, 0xFF, 0x47, 0x40, 0x12, 0x19,
  0x00, 0x50, 0xF0, 0x0F, 0x1C, 0xCF, 0xEB, 0x28, 0x38, 0x1C, 0xE8, 0x00, 0x01, 0x28, 0x50, 0xC2,
  0x2F, 0x48, 0xD3, 0xFF, 0xFF, 0xFF, 0xFF, 0xFF, 0xFF, 0xFF, 0xFF, 0xFF, 0xFF, 0xFF, 0xFF, 0xFF,
  0xFF, 0xFF, 0xFF, 0xFF, 0xFF, 0xFF, 0xFF, 0xFF, 0xFF, 0xFF, 0xFF, 0xFF, 0xFF, 0xFF, 0xFF, 0xFF,
  0xFF, 0xFF, 0xFF, 0xFF, 0xFF, 0xFF, 0xFF, 0xFF, 0xFF, 0xFF, 0xFF, 0xFF, 0xFF, 0xFF, 0xFF, 0xFF,
  0xFF, 0xFF, 0xFF, 0xFF, 0xFF, 0xFF, 0xFF, 0xFF, 0xFF, 0xFF, 0xFF, 0xFF, 0xFF, 0xFF, 0xFF, 0xFF,
  0xFF, 0xFF, 0xFF, 0xFF, 0xFF, 0xFF, 0xFF, 0xFF, 0xFF, 0xFF, 0xFF, 0xFF, 0xFF, 0xFF, 0xFF, 0xFF,
  0xFF, 0xFF, 0xFF, 0xFF, 0xFF, 0xFF, 0xFF, 0xFF, 0xFF, 0xFF, 0xFF, 0xFF, 0xFF, 0xFF, 0xFF, 0xFF,
  0xFF, 0xFF, 0xFF, 0xFF, 0xFF, 0xFF, 0xFF, 0xFF, 0xFF, 0xFF, 0xFF, 0xFF, 0xFF, 0xFF, 0xFF, 0xFF,
  0xFF, 0xFF, 0xFF, 0xFF, 0xFF, 0xFF, 0xFF, 0xFF, 0xFF, 0xFF, 0xFF, 0xFF, 0xFF, 0xFF, 0xFF, 0xFF,
  0xFF, 0xFF, 0xFF, 0xFF, 0xFF, 0xFF, 0xFF, 0xFF, 0xFF, 0xFF, 0xFF, 0xFF, 0xFF, 0xFF, 0xFF, 0xFF,
  0xFF, 0xFF, 0xFF, 0xFF, 0xFF, 0xFF, 0xFF, 0xFF, 0xFF, 0xFF, 0xFF, 0xFF, 0xFF, 0xFF, 0xFF, 0xFF,
  0xFF, 0xFF, 0xFF, 0xFF, 0xFF, 0xFF, 0xFF, 0xFF, 0x47, 0x40, 0x12, 0x1A, 0x00, 0x50, 0xF0, 0x0F,
  0x1C, 0xCF, 0xEB, 0x30, 0x38, 0x1C, 0xE8, 0x00, 0x01, 0x30, 0x50, 0x21, 0x62, 0xEA, 0x67, 0xFF,
  0xFF, 0xFF, 0xFF, 0xFF, 0xFF, 0xFF, 0xFF, 0xFF, 0xFF, 0xFF, 0xFF, 0xFF, 0xFF, 0xFF, 0xFF, 0xFF,
  0xFF, 0xFF, 0xFF, 0xFF, 0xFF, 0xFF, 0xFF, 0xFF, 0xFF, 0xFF, 0xFF, 0xFF, 0xFF, 0xFF, 0xFF, 0xFF,
  0xFF, 0xFF, 0xFF, 0xFF, 0xFF, 0xFF, 0xFF, 0xFF, 0xFF, 0xFF, 0xFF, 0xFF, 0xFF, 0xFF, 0xFF, 0xFF,
  0xFF, 0xFF, 0xFF, 0xFF, 0xFF, 0xFF, 0xFF, 0xFF, 0xFF, 0xFF, 0xFF, 0xFF, 0xFF, 0xFF, 0xFF, 0xFF,
  0xFF, 0xFF, 0xFF, 0xFF, 0xFF, 0xFF, 0xFF, 0xFF, 0xFF, 0xFF, 0xFF, 0xFF, 0xFF, 0xFF, 0xFF, 0xFF,
  0xFF, 0xFF, 0xFF, 0xFF, 0xFF, 0xFF, 0xFF, 0xFF, 0xFF, 0xFF, 0xFF, 0xFF, 0xFF, 0xFF, 0xFF, 0xFF,
  0xFF, 0xFF, 0xFF, 0xFF, 0xFF, 0xFF, 0xFF, 0xFF, 0xFF, 0xFF, 0xFF, 0xFF, 0xFF, 0xFF, 0xFF, 0xFF,
  0xFF, 0xFF, 0xFF, 0xFF, 0xFF, 0xFF, 0xFF, 0xFF, 0xFF, 0xFF, 0xFF, 0xFF, 0xFF, 0xFF, 0xFF, 0xFF,
  0xFF, 0xFF, 0xFF, 0xFF, 0xFF, 0xFF, 0xFF, 0xFF, 0xFF, 0xFF, 0xFF, 0xFF, 0xFF, 0xFF, 0xFF, 0xFF,
  0xFF, 0xFF, 0xFF, 0xFF, 0xFF, 0xFF, 0xFF, 0xFF, 0xFF, 0xFF, 0xFF, 0xFF, 0xFF, 0xFF, 0xFF, 0xFF,
  0xFF, 0xFF, 0xFF, 0xFF, 0x47, 0x40, 0x12, 0x1B, 0x00, 0x50, 0xF2, 0x21, 0x1C, 0xCF, 0xEB, 0x38,
  0x38, 0x1C, 0xE8, 0x00, 0x01, 0x38, 0x50, 0x7C, 0xCC, 0xE3, 0xE7, 0x18, 0x10, 0x00, 0x00, 0x30,
  0x00, 0x12, 0x06, 0x4D, 0x2C, 0x70, 0x6F, 0x6C, 0x27, 0x10, 0x00, 0x02, 0x4F, 0x73, 0x74, 0x61,
  0x74, 0x6E, 0x69, 0x20, 0x70, 0x72, 0x61, 0x77, 0x64, 0x7A, 0x69, 0x77, 0x79, 0x20, 0x6D, 0xEA,
  0xBF, 0x63, 0x7A, 0x79, 0x7A, 0x6E, 0x61, 0x20, 0x34, 0x3A, 0x20, 0x6F, 0x64, 0x63, 0x2E, 0x35,
  0x00, 0x4E, 0xFE, 0x01, 0x70, 0x6F, 0x6C, 0x00, 0xF8, 0x10, 0x00, 0x02, 0x73, 0x65, 0x72, 0x69,
  0x61, 0x6C, 0x20, 0x6B, 0x6F, 0x6D, 0x65, 0x64, 0x69, 0x6F, 0x77, 0x79, 0x20, 0x28, 0x55, 0x53,
  0x41, 0x2C, 0x20, 0x32, 0x30, 0x31, 0x34, 0x29, 0x20, 0x6F, 0x64, 0x63, 0x2E, 0x35, 0x2C, 0x20,
  0x53, 0x7A, 0x6B, 0x6F, 0x6C, 0x6E, 0x61, 0x20, 0x66, 0x75, 0x7A, 0x6A, 0x61, 0x3F, 0x57, 0x79,
  0x73, 0x74, 0xEA, 0x70, 0x75, 0x6A, 0xB1, 0x3A, 0x20, 0x54, 0x69, 0x6D, 0x20, 0x41, 0x6C, 0x6C,
  0x65, 0x6E, 0x2C, 0x20, 0x4E, 0x61, 0x6E, 0x63, 0x79, 0x20, 0x54, 0x72, 0x61, 0x76, 0x69, 0x73,
  0x2C, 0x20, 0x4D, 0x6F, 0x6C, 0x6C, 0x79, 0x20, 0x45, 0x70, 0x68, 0x72, 0x61, 0x69, 0x6D, 0x3F,
  0x47, 0x00, 0x12, 0x1C, 0x4D, 0x69, 0x6B, 0x65, 0x20, 0x69, 0x20, 0x43, 0x68, 0x75, 0x63, 0x6B,
  0x20, 0x64, 0x65, 0x62, 0x61, 0x74, 0x75, 0x6A, 0xB1, 0x20, 0x6E, 0x61, 0x20, 0x74, 0x65, 0x6D,
  0x61, 0x74, 0x20, 0x7A, 0x61, 0x6C, 0x65, 0x74, 0x20, 0x6C, 0x6F, 0x6B, 0x61, 0x6C, 0x6E, 0x65,
  0x67, 0x6F, 0x20, 0x72, 0x65, 0x66, 0x65, 0x72, 0x65, 0x6E, 0x64, 0x75, 0x6D, 0x20, 0x6F, 0x20,
  0x70, 0x6F, 0xB3, 0xB1, 0x63, 0x7A, 0x65, 0x6E, 0x69, 0x75, 0x20, 0x69, 0x63, 0x68, 0x20, 0x65,
  0x6B, 0x73, 0x6B, 0x6C, 0x75, 0x7A, 0x79, 0x77, 0x6E, 0x65, 0x6A, 0x20, 0x73, 0x7A, 0x6B, 0x6F,
  0xB3, 0x79, 0x20, 0xB6, 0x72, 0x65, 0x64, 0x6E, 0x69, 0x65, 0x6A, 0x20, 0x7A, 0x20, 0x73, 0xB1,
  0x73, 0x69, 0x65, 0x64, 0x7A, 0x74, 0x77, 0x61, 0x20, 0x7A, 0x20, 0x70, 0x6C, 0x61, 0x63, 0xF3,
  0x77, 0x6B, 0xB1, 0x20, 0x7A, 0x65, 0x20, 0xB6, 0x72, 0xF3, 0x64, 0x6D, 0x69, 0x65, 0xB6, 0x63,
  0x69, 0x61, 0x2E, 0x20, 0x5A, 0x4E, 0xD0, 0x11, 0x70, 0x6F, 0x6C, 0x00, 0xCA, 0x10, 0x00, 0x02,
  0x20, 0x6F, 0x6B, 0x61, 0x7A, 0x6A, 0x69, 0x20, 0x48, 0x61, 0x6C, 0x6C, 0x6F, 0x77, 0x65, 0x65,
  0x6E, 0x2C, 0x20, 0x52, 0x79, 0x61, 0x6E, 0x20, 0x70, 0x72, 0x7A, 0x65, 0x47, 0x00, 0x12, 0x1D,
  0x62, 0x69, 0x65, 0x72, 0x61, 0x20, 0x42, 0x6F, 0x79, 0x64, 0x61, 0x20, 0x7A, 0x61, 0x20, 0x62,
  0x72, 0x79, 0xB3, 0xEA, 0x20, 0x77, 0xEA, 0x67, 0x6C, 0x61, 0x2E, 0x20, 0x4D, 0x61, 0x20, 0x74,
  0x6F, 0x20, 0x62, 0x79, 0xE6, 0x20, 0x6B, 0x6F, 0x6C, 0x65, 0x6A, 0x6E, 0x79, 0x6D, 0x20, 0x70,
  0x72, 0x7A, 0x79, 0x70, 0x6F, 0x6D, 0x6E, 0x69, 0x65, 0x6E, 0x69, 0x65, 0x6D, 0x20, 0x64, 0x6C,
  0x61, 0x20, 0x56, 0x61, 0x6E, 0x65, 0x73, 0x73, 0x79, 0x2C, 0x20, 0xBF, 0x65, 0x20, 0x6A, 0x65,
  0x6A, 0x20, 0x70, 0x72, 0x61, 0x63, 0x61, 0x20, 0x6A, 0x61, 0x6B, 0x6F, 0x20, 0x67, 0x65, 0x6F,
  0x6C, 0x6F, 0x67, 0x61, 0x20, 0x6D, 0x6F, 0xBF, 0x65, 0x20, 0x73, 0x7A, 0x6B, 0x6F, 0x64, 0x7A,
  0x69, 0xE6, 0x20, 0xB6, 0x72, 0x6F, 0x64, 0x6F, 0x77, 0x69, 0x73, 0x6B, 0x75, 0x20, 0x6E, 0x61,
  0x74, 0x75, 0x72, 0x61, 0x6C, 0x6E, 0x65, 0x6D, 0x75, 0x2E, 0x3F, 0x52, 0x65, 0xBF, 0x79, 0x73,
  0x65, 0x72, 0x3A, 0x20, 0x4A, 0x6F, 0x68, 0x6E, 0x20, 0x50, 0x61, 0x73, 0x71, 0x75, 0x69, 0x6E,
  0x3F, 0x4F, 0x64, 0x20, 0x6C, 0x61, 0x74, 0x3A, 0x20, 0x31, 0x32, 0x55, 0x04, 0x50, 0x4C, 0x20,
  0x09, 0xF8, 0x32, 0x13, 0x11, 0xFF, 0xFF, 0xFF]

/-- `TDT`, tests/data/mod.rs -/
def TDT : List UInt8 := [
  0x47, 0x40, 0x14, 0x13, 0x00, 0x70, 0x70, 0x05, 0xE4, 0x7C, 0x18, 0x10, 0x12, 0xFF, 0xFF, 0xFF,
  0xFF, 0xFF, 0xFF, 0xFF, 0xFF, 0xFF, 0xFF, 0xFF, 0xFF, 0xFF, 0xFF, 0xFF, 0xFF, 0xFF, 0xFF, 0xFF,
  0xFF, 0xFF, 0xFF, 0xFF, 0xFF, 0xFF, 0xFF, 0xFF, 0xFF, 0xFF, 0xFF, 0xFF, 0xFF, 0xFF, 0xFF, 0xFF,
  0xFF, 0xFF, 0xFF, 0xFF, 0xFF, 0xFF, 0xFF, 0xFF, 0xFF, 0xFF, 0xFF, 0xFF, 0xFF, 0xFF, 0xFF, 0xFF,
  0xFF, 0xFF, 0xFF, 0xFF, 0xFF, 0xFF, 0xFF, 0xFF, 0xFF, 0xFF, 0xFF, 0xFF, 0xFF, 0xFF, 0xFF, 0xFF,
  0xFF, 0xFF, 0xFF, 0xFF, 0xFF, 0xFF, 0xFF, 0xFF, 0xFF, 0xFF, 0xFF, 0xFF, 0xFF, 0xFF, 0xFF, 0xFF,
  0xFF, 0xFF, 0xFF, 0xFF, 0xFF, 0xFF, 0xFF, 0xFF, 0xFF, 0xFF, 0xFF, 0xFF, 0xFF, 0xFF, 0xFF, 0xFF,
  0xFF, 0xFF, 0xFF, 0xFF, 0xFF, 0xFF, 0xFF, 0xFF, 0xFF, 0xFF, 0xFF, 0xFF, 0xFF, 0xFF, 0xFF, 0xFF,
  0xFF, 0xFF, 0xFF, 0xFF, 0xFF, 0xFF, 0xFF, 0xFF, 0xFF, 0xFF, 0xFF, 0xFF, 0xFF, 0xFF, 0xFF, 0xFF,
  0xFF, 0xFF, 0xFF, 0xFF, 0xFF, 0xFF, 0xFF, 0xFF, 0xFF, 0xFF, 0xFF, 0xFF, 0xFF, 0xFF, 0xFF, 0xFF,
  0xFF, 0xFF, 0xFF, 0xFF, 0xFF, 0xFF, 0xFF, 0xFF, 0xFF, 0xFF, 0xFF, 0xFF, 0xFF, 0xFF, 0xFF, 0xFF,
  0xFF, 0xFF, 0xFF, 0xFF, 0xFF, 0xFF, 0xFF, 0xFF, 0xFF, 0xFF, 0xFF, 0xFF]

/-- `TOT`, tests/data/mod.rs -/
def TOT : List UInt8 := [
  0x47, 0x40, 0x14, 0x14, 0x00, 0x73, 0x70, 0x17, 0xE4, 0x7C, 0x18, 0x10, 0x12, 0xF0, 0x0C, 0x9A,
  0x0A, 0xE4, 0xB8, 0x02, 0x00, 0x00, 0xE5, 0xA6, 0x02, 0x00, 0x00, 0x9E, 0xB9, 0xC0, 0xBE, 0xFF,
  0xFF, 0xFF, 0xFF, 0xFF, 0xFF, 0xFF, 0xFF, 0xFF, 0xFF, 0xFF, 0xFF, 0xFF, 0xFF, 0xFF, 0xFF, 0xFF,
  0xFF, 0xFF, 0xFF, 0xFF, 0xFF, 0xFF, 0xFF, 0xFF, 0xFF, 0xFF, 0xFF, 0xFF, 0xFF, 0xFF, 0xFF, 0xFF,
  0xFF, 0xFF, 0xFF, 0xFF, 0xFF, 0xFF, 0xFF, 0xFF, 0xFF, 0xFF, 0xFF, 0xFF, 0xFF, 0xFF, 0xFF, 0xFF,
  0xFF, 0xFF, 0xFF, 0xFF, 0xFF, 0xFF, 0xFF, 0xFF, 0xFF, 0xFF, 0xFF, 0xFF, 0xFF, 0xFF, 0xFF, 0xFF,
  0xFF, 0xFF, 0xFF, 0xFF, 0xFF, 0xFF, 0xFF, 0xFF, 0xFF, 0xFF, 0xFF, 0xFF, 0xFF, 0xFF, 0xFF, 0xFF,
  0xFF, 0xFF, 0xFF, 0xFF, 0xFF, 0xFF, 0xFF, 0xFF, 0xFF, 0xFF, 0xFF, 0xFF, 0xFF, 0xFF, 0xFF, 0xFF,
  0xFF, 0xFF, 0xFF, 0xFF, 0xFF, 0xFF, 0xFF, 0xFF, 0xFF, 0xFF, 0xFF, 0xFF, 0xFF, 0xFF, 0xFF, 0xFF,
  0xFF, 0xFF, 0xFF, 0xFF, 0xFF, 0xFF, 0xFF, 0xFF, 0xFF, 0xFF, 0xFF, 0xFF, 0xFF, 0xFF, 0xFF, 0xFF,
  0xFF, 0xFF, 0xFF, 0xFF, 0xFF, 0xFF, 0xFF, 0xFF, 0xFF, 0xFF, 0xFF, 0xFF, 0xFF, 0xFF, 0xFF, 0xFF,
  0xFF, 0xFF, 0xFF, 0xFF, 0xFF, 0xFF, 0xFF, 0xFF, 0xFF, 0xFF, 0xFF, 0xFF]

/-- `TWO_PSI`, tests/psi.rs -/
def TWO_PSI : List UInt8 := [
  0x47, 0x40, 0x14, 0x1E, 0x03, 0xFF, 0xFF, 0xFF, 0x70, 0x70, 0xB4, 0xE3, 0xC5, 0x22, 0x16, 0x00,
  0xFF, 0xFF, 0xFF, 0xFF, 0xFF, 0xFF, 0xFF, 0xFF, 0xFF, 0xFF, 0xFF, 0xFF, 0xFF, 0xFF, 0xFF, 0xFF,
  0xFF, 0xFF, 0xFF, 0xFF, 0xFF, 0xFF, 0xFF, 0xFF, 0xFF, 0xFF, 0xFF, 0xFF, 0xFF, 0xFF, 0xFF, 0xFF,
  0xFF, 0xFF, 0xFF, 0xFF, 0xFF, 0xFF, 0xFF, 0xFF, 0xFF, 0xFF, 0xFF, 0xFF, 0xFF, 0xFF, 0xFF, 0xFF,
  0xFF, 0xFF, 0xFF, 0xFF, 0xFF, 0xFF, 0xFF, 0xFF, 0xFF, 0xFF, 0xFF, 0xFF, 0xFF, 0xFF, 0xFF, 0xFF,
  0xFF, 0xFF, 0xFF, 0xFF, 0xFF, 0xFF, 0xFF, 0xFF, 0xFF, 0xFF, 0xFF, 0xFF, 0xFF, 0xFF, 0xFF, 0xFF,
  0xFF, 0xFF, 0xFF, 0xFF, 0xFF, 0xFF, 0xFF, 0xFF, 0xFF, 0xFF, 0xFF, 0xFF, 0xFF, 0xFF, 0xFF, 0xFF,
  0xFF, 0xFF, 0xFF, 0xFF, 0xFF, 0xFF, 0xFF, 0xFF, 0xFF, 0xFF, 0xFF, 0xFF, 0xFF, 0xFF, 0xFF, 0xFF,
  0xFF, 0xFF, 0xFF, 0xFF, 0xFF, 0xFF, 0xFF, 0xFF, 0xFF, 0xFF, 0xFF, 0xFF, 0xFF, 0xFF, 0xFF, 0xFF,
  0xFF, 0xFF, 0xFF, 0xFF, 0xFF, 0xFF, 0xFF, 0xFF, 0xFF, 0xFF, 0xFF, 0xFF, 0xFF, 0xFF, 0xFF, 0xFF,
  0xFF, 0xFF, 0xFF, 0xFF, 0xFF, 0xFF, 0xFF, 0xFF, 0xFF, 0xFF, 0xFF, 0xFF, 0xFF, 0xFF, 0xFF, 0xFF,
  0xFF, 0xFF, 0xFF, 0xFF, 0xFF, 0xFF, 0xFF, 0xFF, 0xFF, 0xFF, 0xFF, 0x18, 0x47, 0x40, 0x14, 0x1F,
  0x03, 0xB1, 0x16, 0x5B, 0x70, 0x70, 0x09, 0xE3, 0xC5, 0x22, 0x16, 0x00, 0x94, 0x98, 0x4A, 0x38,
  0xFF, 0xFF, 0xFF, 0xFF, 0xFF, 0xFF, 0xFF, 0xFF, 0xFF, 0xFF, 0xFF, 0xFF, 0xFF, 0xFF, 0xFF, 0xFF,
  0xFF, 0xFF, 0xFF, 0xFF, 0xFF, 0xFF, 0xFF, 0xFF, 0xFF, 0xFF, 0xFF, 0xFF, 0xFF, 0xFF, 0xFF, 0xFF,
  0xFF, 0xFF, 0xFF, 0xFF, 0xFF, 0xFF, 0xFF, 0xFF, 0xFF, 0xFF, 0xFF, 0xFF, 0xFF, 0xFF, 0xFF, 0xFF,
  0xFF, 0xFF, 0xFF, 0xFF, 0xFF, 0xFF, 0xFF, 0xFF, 0xFF, 0xFF, 0xFF, 0xFF, 0xFF, 0xFF, 0xFF, 0xFF,
  0xFF, 0xFF, 0xFF, 0xFF, 0xFF, 0xFF, 0xFF, 0xFF, 0xFF, 0xFF, 0xFF, 0xFF, 0xFF, 0xFF, 0xFF, 0xFF,
  0xFF, 0xFF, 0xFF, 0xFF, 0xFF, 0xFF, 0xFF, 0xFF, 0xFF, 0xFF, 0xFF, 0xFF, 0xFF, 0xFF, 0xFF, 0xFF,
  0xFF, 0xFF, 0xFF, 0xFF, 0xFF, 0xFF, 0xFF, 0xFF, 0xFF, 0xFF, 0xFF, 0xFF, 0xFF, 0xFF, 0xFF, 0xFF,
  0xFF, 0xFF, 0xFF, 0xFF, 0xFF, 0xFF, 0xFF, 0xFF, 0xFF, 0xFF, 0xFF, 0xFF, 0xFF, 0xFF, 0xFF, 0xFF,
  0xFF, 0xFF, 0xFF, 0xFF, 0xFF, 0xFF, 0xFF, 0xFF, 0xFF, 0xFF, 0xFF, 0xFF, 0xFF, 0xFF, 0xFF, 0xFF,
  0xFF, 0xFF, 0xFF, 0xFF, 0xFF, 0xFF, 0xFF, 0xFF, 0xFF, 0xFF, 0xFF, 0xFF, 0xFF, 0xFF, 0xFF, 0xFF,
  0xFF, 0xFF, 0xFF, 0xFF, 0xFF, 0xFF, 0xFF, 0xFF]

/-- `SMALL_HEADER_PSI`, tests/psi.rs -/
def SMALL_HEADER_PSI : List UInt8 := [
  0x47, 0x40, 0x14, 0x1E, 0xB5, 0xFF, 0xFF, 0xFF, 0xFF, 0xFF, 0xFF, 0xFF, 0xFF, 0xFF, 0xFF, 0xFF,
  0xFF, 0xFF, 0xFF, 0xFF, 0xFF, 0xFF, 0xFF, 0xFF, 0xFF, 0xFF, 0xFF, 0xFF, 0xFF, 0xFF, 0xFF, 0xFF,
  0xFF, 0xFF, 0xFF, 0xFF, 0xFF, 0xFF, 0xFF, 0xFF, 0xFF, 0xFF, 0xFF, 0xFF, 0xFF, 0xFF, 0xFF, 0xFF,
  0xFF, 0xFF, 0xFF, 0xFF, 0xFF, 0xFF, 0xFF, 0xFF, 0xFF, 0xFF, 0xFF, 0xFF, 0xFF, 0xFF, 0xFF, 0xFF,
  0xFF, 0xFF, 0xFF, 0xFF, 0xFF, 0xFF, 0xFF, 0xFF, 0xFF, 0xFF, 0xFF, 0xFF, 0xFF, 0xFF, 0xFF, 0xFF,
  0xFF, 0xFF, 0xFF, 0xFF, 0xFF, 0xFF, 0xFF, 0xFF, 0xFF, 0xFF, 0xFF, 0xFF, 0xFF, 0xFF, 0xFF, 0xFF,
  0xFF, 0xFF, 0xFF, 0xFF, 0xFF, 0xFF, 0xFF, 0xFF, 0xFF, 0xFF, 0xFF, 0xFF, 0xFF, 0xFF, 0xFF, 0xFF,
  0xFF, 0xFF, 0xFF, 0xFF, 0xFF, 0xFF, 0xFF, 0xFF, 0xFF, 0xFF, 0xFF, 0xFF, 0xFF, 0xFF, 0xFF, 0xFF,
  0xFF, 0xFF, 0xFF, 0xFF, 0xFF, 0xFF, 0xFF, 0xFF, 0xFF, 0xFF, 0xFF, 0xFF, 0xFF, 0xFF, 0xFF, 0xFF,
  0xFF, 0xFF, 0xFF, 0xFF, 0xFF, 0xFF, 0xFF, 0xFF, 0xFF, 0xFF, 0xFF, 0xFF, 0xFF, 0xFF, 0xFF, 0xFF,
  0xFF, 0xFF, 0xFF, 0xFF, 0xFF, 0xFF, 0xFF, 0xFF, 0xFF, 0xFF, 0xFF, 0xFF, 0xFF, 0xFF, 0xFF, 0xFF,
  0xFF, 0xFF, 0xFF, 0xFF, 0xFF, 0xFF, 0xFF, 0xFF, 0xFF, 0xFF, 0x00, 0xB0, 0x47, 0x00, 0x14, 0x1F,
  0x25, 0x00, 0x01, 0xC3, 0x00, 0x00, 0x00, 0x00, 0xE0, 0x10, 0x00, 0x01, 0xE4, 0x07, 0x00, 0x02,
  0xE4, 0x08, 0x00, 0x03, 0xE4, 0x09, 0x00, 0x04, 0xE4, 0x0A, 0x00, 0x05, 0xE4, 0x0B, 0x00, 0x06,
  0xE4, 0x0C, 0xB2, 0xD1, 0xB8, 0xDE, 0xFF, 0xFF, 0xFF, 0xFF, 0xFF, 0xFF, 0xFF, 0xFF, 0xFF, 0xFF,
  0xFF, 0xFF, 0xFF, 0xFF, 0xFF, 0xFF, 0xFF, 0xFF, 0xFF, 0xFF, 0xFF, 0xFF, 0xFF, 0xFF, 0xFF, 0xFF,
  0xFF, 0xFF, 0xFF, 0xFF, 0xFF, 0xFF, 0xFF, 0xFF, 0xFF, 0xFF, 0xFF, 0xFF, 0xFF, 0xFF, 0xFF, 0xFF,
  0xFF, 0xFF, 0xFF, 0xFF, 0xFF, 0xFF, 0xFF, 0xFF, 0xFF, 0xFF, 0xFF, 0xFF, 0xFF, 0xFF, 0xFF, 0xFF,
  0xFF, 0xFF, 0xFF, 0xFF, 0xFF, 0xFF, 0xFF, 0xFF, 0xFF, 0xFF, 0xFF, 0xFF, 0xFF, 0xFF, 0xFF, 0xFF,
  0xFF, 0xFF, 0xFF, 0xFF, 0xFF, 0xFF, 0xFF, 0xFF, 0xFF, 0xFF, 0xFF, 0xFF, 0xFF, 0xFF, 0xFF, 0xFF,
  0xFF, 0xFF, 0xFF, 0xFF, 0xFF, 0xFF, 0xFF, 0xFF, 0xFF, 0xFF, 0xFF, 0xFF, 0xFF, 0xFF, 0xFF, 0xFF,
  0xFF, 0xFF, 0xFF, 0xFF, 0xFF, 0xFF, 0xFF, 0xFF, 0xFF, 0xFF, 0xFF, 0xFF, 0xFF, 0xFF, 0xFF, 0xFF,
  0xFF, 0xFF, 0xFF, 0xFF, 0xFF, 0xFF, 0xFF, 0xFF, 0xFF, 0xFF, 0xFF, 0xFF, 0xFF, 0xFF, 0xFF, 0xFF,
  0xFF, 0xFF, 0xFF, 0xFF, 0xFF, 0xFF, 0xFF, 0xFF]

end Mpegts.Tests
