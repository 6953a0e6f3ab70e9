import Verif.Words
import Verif.Model.Endian
/-
  Model of src/kryptos_twofish.c.  The structure of the subkeys is not initialised before the key schedule, which shifts its old contents out of
  the words it computes: the old contents are arguments of the model, and so are the variables `f0` and `f1` of the rounds.
-/
namespace Kryptos.Twofish

/-- `kryptos_twofish_q0_lt` and `kryptos_twofish_q1_lt` (src/kryptos_twofish.c:63-75). -/
def q0lt : List Bytes :=
  [[0x08, 0x01, 0x07, 0x0D, 0x06, 0x0F, 0x03, 0x02, 0x00, 0x0B, 0x05, 0x09, 0x0E, 0x0C, 0x0A, 0x04],
   [0x0E, 0x0C, 0x0B, 0x08, 0x01, 0x02, 0x03, 0x05, 0x0F, 0x04, 0x0A, 0x06, 0x07, 0x00, 0x09, 0x0D],
   [0x0B, 0x0A, 0x05, 0x0E, 0x06, 0x0D, 0x09, 0x00, 0x0C, 0x08, 0x0F, 0x03, 0x02, 0x04, 0x07, 0x01],
   [0x0D, 0x07, 0x0F, 0x04, 0x01, 0x02, 0x06, 0x0E, 0x09, 0x0B, 0x03, 0x00, 0x08, 0x05, 0x0C, 0x0A]]
def q1lt : List Bytes :=
  [[0x02, 0x08, 0x0B, 0x0D, 0x0F, 0x07, 0x06, 0x0E, 0x03, 0x01, 0x09, 0x04, 0x00, 0x0A, 0x0C, 0x05],
   [0x01, 0x0E, 0x02, 0x0B, 0x04, 0x0C, 0x03, 0x07, 0x06, 0x0D, 0x0A, 0x05, 0x0F, 0x09, 0x00, 0x08],
   [0x04, 0x0C, 0x07, 0x05, 0x01, 0x06, 0x09, 0x0A, 0x00, 0x0E, 0x0D, 0x08, 0x02, 0x0B, 0x03, 0x0F],
   [0x0B, 0x09, 0x05, 0x01, 0x0C, 0x03, 0x0D, 0x0E, 0x06, 0x04, 0x07, 0x0F, 0x02, 0x00, 0x08, 0x0A]]

/-- The tables used instead when `KRYPTOS_TWOFISH_WITH_PRE_COMPUTED_Q_PERMS` is defined (src/kryptos_twofish.c:79-147). -/
def q0sbox : Bytes :=
  [0xA9, 0x67, 0xB3, 0xE8, 0x04, 0xFD, 0xA3, 0x76, 0x9A, 0x92, 0x80, 0x78, 0xE4, 0xDD, 0xD1, 0x38,
   0x0D, 0xC6, 0x35, 0x98, 0x18, 0xF7, 0xEC, 0x6C, 0x43, 0x75, 0x37, 0x26, 0xFA, 0x13, 0x94, 0x48,
   0xF2, 0xD0, 0x8B, 0x30, 0x84, 0x54, 0xDF, 0x23, 0x19, 0x5B, 0x3D, 0x59, 0xF3, 0xAE, 0xA2, 0x82,
   0x63, 0x01, 0x83, 0x2E, 0xD9, 0x51, 0x9B, 0x7C, 0xA6, 0xEB, 0xA5, 0xBE, 0x16, 0x0C, 0xE3, 0x61,
   0xC0, 0x8C, 0x3A, 0xF5, 0x73, 0x2C, 0x25, 0x0B, 0xBB, 0x4E, 0x89, 0x6B, 0x53, 0x6A, 0xB4, 0xF1,
   0xE1, 0xE6, 0xBD, 0x45, 0xE2, 0xF4, 0xB6, 0x66, 0xCC, 0x95, 0x03, 0x56, 0xD4, 0x1C, 0x1E, 0xD7,
   0xFB, 0xC3, 0x8E, 0xB5, 0xE9, 0xCF, 0xBF, 0xBA, 0xEA, 0x77, 0x39, 0xAF, 0x33, 0xC9, 0x62, 0x71,
   0x81, 0x79, 0x09, 0xAD, 0x24, 0xCD, 0xF9, 0xD8, 0xE5, 0xC5, 0xB9, 0x4D, 0x44, 0x08, 0x86, 0xE7,
   0xA1, 0x1D, 0xAA, 0xED, 0x06, 0x70, 0xB2, 0xD2, 0x41, 0x7B, 0xA0, 0x11, 0x31, 0xC2, 0x27, 0x90,
   0x20, 0xF6, 0x60, 0xFF, 0x96, 0x5C, 0xB1, 0xAB, 0x9E, 0x9C, 0x52, 0x1B, 0x5F, 0x93, 0x0A, 0xEF,
   0x91, 0x85, 0x49, 0xEE, 0x2D, 0x4F, 0x8F, 0x3B, 0x47, 0x87, 0x6D, 0x46, 0xD6, 0x3E, 0x69, 0x64,
   0x2A, 0xCE, 0xCB, 0x2F, 0xFC, 0x97, 0x05, 0x7A, 0xAC, 0x7F, 0xD5, 0x1A, 0x4B, 0x0E, 0xA7, 0x5A,
   0x28, 0x14, 0x3F, 0x29, 0x88, 0x3C, 0x4C, 0x02, 0xB8, 0xDA, 0xB0, 0x17, 0x55, 0x1F, 0x8A, 0x7D,
   0x57, 0xC7, 0x8D, 0x74, 0xB7, 0xC4, 0x9F, 0x72, 0x7E, 0x15, 0x22, 0x12, 0x58, 0x07, 0x99, 0x34,
   0x6E, 0x50, 0xDE, 0x68, 0x65, 0xBC, 0xDB, 0xF8, 0xC8, 0xA8, 0x2B, 0x40, 0xDC, 0xFE, 0x32, 0xA4,
   0xCA, 0x10, 0x21, 0xF0, 0xD3, 0x5D, 0x0F, 0x00, 0x6F, 0x9D, 0x36, 0x42, 0x4A, 0x5E, 0xC1, 0xE0]
def q1sbox : Bytes :=
  [0x75, 0xF3, 0xC6, 0xF4, 0xDB, 0x7B, 0xFB, 0xC8, 0x4A, 0xD3, 0xE6, 0x6B, 0x45, 0x7D, 0xE8, 0x4B,
   0xD6, 0x32, 0xD8, 0xFD, 0x37, 0x71, 0xF1, 0xE1, 0x30, 0x0F, 0xF8, 0x1B, 0x87, 0xFA, 0x06, 0x3F,
   0x5E, 0xBA, 0xAE, 0x5B, 0x8A, 0x00, 0xBC, 0x9D, 0x6D, 0xC1, 0xB1, 0x0E, 0x80, 0x5D, 0xD2, 0xD5,
   0xA0, 0x84, 0x07, 0x14, 0xB5, 0x90, 0x2C, 0xA3, 0xB2, 0x73, 0x4C, 0x54, 0x92, 0x74, 0x36, 0x51,
   0x38, 0xB0, 0xBD, 0x5A, 0xFC, 0x60, 0x62, 0x96, 0x6C, 0x42, 0xF7, 0x10, 0x7C, 0x28, 0x27, 0x8C,
   0x13, 0x95, 0x9C, 0xC7, 0x24, 0x46, 0x3B, 0x70, 0xCA, 0xE3, 0x85, 0xCB, 0x11, 0xD0, 0x93, 0xB8,
   0xA6, 0x83, 0x20, 0xFF, 0x9F, 0x77, 0xC3, 0xCC, 0x03, 0x6F, 0x08, 0xBF, 0x40, 0xE7, 0x2B, 0xE2,
   0x79, 0x0C, 0xAA, 0x82, 0x41, 0x3A, 0xEA, 0xB9, 0xE4, 0x9A, 0xA4, 0x97, 0x7E, 0xDA, 0x7A, 0x17,
   0x66, 0x94, 0xA1, 0x1D, 0x3D, 0xF0, 0xDE, 0xB3, 0x0B, 0x72, 0xA7, 0x1C, 0xEF, 0xD1, 0x53, 0x3E,
   0x8F, 0x33, 0x26, 0x5F, 0xEC, 0x76, 0x2A, 0x49, 0x81, 0x88, 0xEE, 0x21, 0xC4, 0x1A, 0xEB, 0xD9,
   0xC5, 0x39, 0x99, 0xCD, 0xAD, 0x31, 0x8B, 0x01, 0x18, 0x23, 0xDD, 0x1F, 0x4E, 0x2D, 0xF9, 0x48,
   0x4F, 0xF2, 0x65, 0x8E, 0x78, 0x5C, 0x58, 0x19, 0x8D, 0xE5, 0x98, 0x57, 0x67, 0x7F, 0x05, 0x64,
   0xAF, 0x63, 0xB6, 0xFE, 0xF5, 0xB7, 0x3C, 0xA5, 0xCE, 0xE9, 0x68, 0x44, 0xE0, 0x4D, 0x43, 0x69,
   0x29, 0x2E, 0xAC, 0x15, 0x59, 0xA8, 0x0A, 0x9E, 0x6E, 0x47, 0xDF, 0x34, 0x35, 0x6A, 0xCF, 0xDC,
   0x22, 0xC9, 0xC0, 0x9B, 0x89, 0xD4, 0xED, 0xAB, 0x12, 0xA2, 0x0D, 0x52, 0xBB, 0x02, 0x2F, 0xA9,
   0xD7, 0x61, 0x1E, 0xB4, 0x50, 0x04, 0xF6, 0xC2, 0x16, 0x25, 0x86, 0x56, 0x55, 0x09, 0xBE, 0x91]

/-- `kryptos_twofish_mds_log_table` and `kryptos_twofish_mds_antilog_table` (src/kryptos_twofish.c:153-189). -/
def mdsLog : Bytes :=
  [0x00, 0x00, 0x10, 0x01, 0x20, 0x02, 0x11, 0xCC, 0x30, 0xCD, 0x12, 0x7D, 0x21, 0xD7, 0xDC, 0x03,
   0x40, 0x04, 0xDD, 0x77, 0x22, 0x99, 0x8D, 0xD8, 0x31, 0x19, 0xE7, 0xCE, 0xEC, 0x7E, 0x13, 0x91,
   0x50, 0x92, 0x14, 0xA4, 0xED, 0x6B, 0x87, 0x7F, 0x32, 0x62, 0xA9, 0x1A, 0x9D, 0xCF, 0xE8, 0xD3,
   0x41, 0x4A, 0x29, 0x05, 0xF7, 0x78, 0xDE, 0xB6, 0xFC, 0xD9, 0x8E, 0x3D, 0x23, 0x26, 0xA1, 0x9A,
   0x60, 0x9B, 0xA2, 0x85, 0x24, 0xFA, 0xB4, 0x27, 0xFD, 0x1E, 0x7B, 0xDA, 0x97, 0x3E, 0x8F, 0xE5,
   0x42, 0xAF, 0x72, 0x4B, 0xB9, 0x06, 0x2A, 0x58, 0xAD, 0xB7, 0xDF, 0xE1, 0xF8, 0x5E, 0xE3, 0x79,
   0x51, 0xC2, 0x5A, 0x93, 0x39, 0xA5, 0x15, 0x2C, 0x08, 0x80, 0x88, 0x66, 0xEE, 0xBB, 0xC6, 0x6C,
   0x0D, 0xD4, 0xE9, 0x74, 0x9E, 0x47, 0x4D, 0xD0, 0x33, 0x44, 0x36, 0x63, 0xB1, 0x1B, 0xAA, 0x55,
   0x70, 0x56, 0xAB, 0x5C, 0xB2, 0x83, 0x95, 0x1C, 0x34, 0x53, 0x0B, 0x45, 0xC4, 0x64, 0x37, 0xC0,
   0x0E, 0xCA, 0x2E, 0xD5, 0x8B, 0x75, 0xEA, 0x17, 0xA7, 0xD1, 0x4E, 0x69, 0x9F, 0x3B, 0xF5, 0x48,
   0x52, 0x0A, 0xBF, 0xC3, 0x82, 0x94, 0x5B, 0x6F, 0xC9, 0x2D, 0x16, 0x8A, 0x3A, 0xF4, 0x68, 0xA6,
   0xBD, 0x6D, 0xC7, 0xF2, 0xEF, 0xF0, 0xF1, 0xBC, 0x09, 0xBE, 0x6E, 0x81, 0xF3, 0x67, 0x89, 0xC8,
   0x61, 0xA8, 0xD2, 0x9C, 0x6A, 0x86, 0xA3, 0x4F, 0x49, 0x28, 0xB5, 0xF6, 0x25, 0xA0, 0x3C, 0xFB,
   0x18, 0xE6, 0x90, 0xEB, 0x98, 0x8C, 0x76, 0x3F, 0xFE, 0x0F, 0xCB, 0x1F, 0xD6, 0xDB, 0x7C, 0x2F,
   0x1D, 0x7A, 0xE4, 0x96, 0xF9, 0xB3, 0x84, 0x5F, 0xAE, 0x71, 0x57, 0xB8, 0x5D, 0xE2, 0xE0, 0xAC,
   0x43, 0x35, 0x54, 0xB0, 0x46, 0x4C, 0x73, 0x0C, 0xC1, 0x59, 0x2B, 0x38, 0xBA, 0xC5, 0x65, 0x07]
def mdsAlog : Bytes :=
  [0x01, 0x03, 0x05, 0x0F, 0x11, 0x33, 0x55, 0xFF, 0x68, 0xB8, 0xA1, 0x8A, 0xF7, 0x70, 0x90, 0xD9,
   0x02, 0x06, 0x0A, 0x1E, 0x22, 0x66, 0xAA, 0x97, 0xD0, 0x19, 0x2B, 0x7D, 0x87, 0xE0, 0x49, 0xDB,
   0x04, 0x0C, 0x14, 0x3C, 0x44, 0xCC, 0x3D, 0x47, 0xC9, 0x32, 0x56, 0xFA, 0x67, 0xA9, 0x92, 0xDF,
   0x08, 0x18, 0x28, 0x78, 0x88, 0xF1, 0x7A, 0x8E, 0xFB, 0x64, 0xAC, 0x9D, 0xCE, 0x3B, 0x4D, 0xD7,
   0x10, 0x30, 0x50, 0xF0, 0x79, 0x8B, 0xF4, 0x75, 0x9F, 0xC8, 0x31, 0x53, 0xF5, 0x76, 0x9A, 0xC7,
   0x20, 0x60, 0xA0, 0x89, 0xF2, 0x7F, 0x81, 0xEA, 0x57, 0xF9, 0x62, 0xA6, 0x83, 0xEC, 0x5D, 0xE7,
   0x40, 0xC0, 0x29, 0x7B, 0x8D, 0xFE, 0x6B, 0xBD, 0xAE, 0x9B, 0xC4, 0x25, 0x6F, 0xB1, 0xBA, 0xA7,
   0x80, 0xE9, 0x52, 0xF6, 0x73, 0x95, 0xD6, 0x13, 0x35, 0x5F, 0xE1, 0x4A, 0xDE, 0x0B, 0x1D, 0x27,
   0x69, 0xBB, 0xA4, 0x85, 0xE6, 0x43, 0xC5, 0x26, 0x6A, 0xBE, 0xAB, 0x94, 0xD5, 0x16, 0x3A, 0x4E,
   0xD2, 0x1F, 0x21, 0x63, 0xA5, 0x86, 0xE3, 0x4C, 0xD4, 0x15, 0x3F, 0x41, 0xC3, 0x2C, 0x74, 0x9C,
   0xCD, 0x3E, 0x42, 0xC6, 0x23, 0x65, 0xAF, 0x98, 0xC1, 0x2A, 0x7E, 0x82, 0xEF, 0x58, 0xE8, 0x51,
   0xF3, 0x7C, 0x84, 0xE5, 0x46, 0xCA, 0x37, 0x59, 0xEB, 0x54, 0xFC, 0x6D, 0xB7, 0xB0, 0xB9, 0xA2,
   0x8F, 0xF8, 0x61, 0xA3, 0x8C, 0xFD, 0x6E, 0xB2, 0xBF, 0xA8, 0x91, 0xDA, 0x07, 0x09, 0x1B, 0x2D,
   0x77, 0x99, 0xC2, 0x2F, 0x71, 0x93, 0xDC, 0x0D, 0x17, 0x39, 0x4B, 0xDD, 0x0E, 0x12, 0x36, 0x5A,
   0xEE, 0x5B, 0xED, 0x5E, 0xE2, 0x4F, 0xD1, 0x1A, 0x2E, 0x72, 0x96, 0xD3, 0x1C, 0x24, 0x6C, 0xB4,
   0xB5, 0xB6, 0xB3, 0xBC, 0xAD, 0x9E, 0xCB, 0x34, 0x5C, 0xE4, 0x45, 0xCF, 0x38, 0x48, 0xD8]

/-- `kryptos_twofish_rs_log_table` and `kryptos_twofish_rs_antilog_table` (src/kryptos_twofish.c:193-229). -/
def rsLog : Bytes :=
  [0x00, 0x00, 0x7A, 0x01, 0xF4, 0x02, 0x7B, 0xB5, 0x6F, 0xB6, 0x7C, 0x54, 0xF5, 0xE0, 0x30, 0x03,
   0xE9, 0x04, 0x31, 0x13, 0xF6, 0x6B, 0xCE, 0xE1, 0x70, 0xFA, 0x5B, 0xB7, 0xAA, 0x55, 0x7D, 0x38,
   0x64, 0x39, 0x7E, 0x96, 0xAB, 0x28, 0x8D, 0x56, 0x71, 0x92, 0xE5, 0xFB, 0x49, 0xB8, 0x5C, 0xA4,
   0xEA, 0x0A, 0x75, 0x05, 0xD5, 0x14, 0x32, 0x9C, 0x25, 0xE2, 0xCF, 0xD2, 0xF7, 0xCB, 0xB2, 0x6C,
   0xDE, 0x6D, 0xB3, 0x78, 0xF8, 0xA8, 0x11, 0xCC, 0x26, 0x62, 0xA2, 0xE3, 0x08, 0xD3, 0xD0, 0xB0,
   0xEB, 0xC1, 0x0D, 0x0B, 0x60, 0x06, 0x76, 0x0F, 0xC3, 0x9D, 0x33, 0x44, 0xD6, 0xED, 0x1F, 0x15,
   0x65, 0xD8, 0x84, 0x3A, 0xEF, 0x97, 0x7F, 0xBC, 0x50, 0x57, 0x8E, 0x21, 0xAC, 0x1B, 0x17, 0x29,
   0x9F, 0xA5, 0x5D, 0x41, 0x4A, 0xC5, 0x4D, 0xB9, 0x72, 0xC8, 0x46, 0x93, 0x2D, 0xFC, 0xE6, 0x35,
   0x59, 0x36, 0xE7, 0x69, 0x2E, 0x52, 0xF2, 0xFD, 0x73, 0x9A, 0x23, 0xC9, 0x8B, 0x94, 0x47, 0x90,
   0xA0, 0xAE, 0xDC, 0xA6, 0x1D, 0x42, 0x5E, 0xBF, 0x82, 0xBA, 0x4E, 0x19, 0x4B, 0x3F, 0x2B, 0xC6,
   0x66, 0x88, 0x3C, 0xD9, 0x87, 0x3B, 0x85, 0x86, 0xDA, 0xBD, 0x80, 0x3D, 0xF0, 0x67, 0x89, 0x98,
   0x3E, 0x2A, 0x18, 0x81, 0xAD, 0xDB, 0xBE, 0x1C, 0x51, 0xF1, 0x68, 0x58, 0x99, 0x22, 0x8F, 0x8A,
   0xDF, 0x2F, 0x53, 0x6E, 0xFE, 0x79, 0xB4, 0xF3, 0x6A, 0xCD, 0x12, 0xE8, 0xF9, 0x5A, 0x37, 0xA9,
   0xCA, 0xB1, 0xD1, 0x24, 0x09, 0x74, 0x9B, 0xD4, 0x27, 0x8C, 0x95, 0x63, 0x91, 0xE4, 0xA3, 0x48,
   0x1A, 0x16, 0x20, 0x4F, 0xD7, 0x83, 0xBB, 0xEE, 0xC4, 0x4C, 0x40, 0x9E, 0xC7, 0x45, 0x34, 0x2C,
   0xEC, 0x1E, 0x43, 0xC2, 0xC0, 0x0C, 0x0E, 0x5F, 0xA7, 0x10, 0x77, 0xDD, 0x61, 0xA1, 0xAF, 0x07]
def rsAlog : Bytes :=
  [0x01, 0x03, 0x05, 0x0F, 0x11, 0x33, 0x55, 0xFF, 0x4C, 0xD4, 0x31, 0x53, 0xF5, 0x52, 0xF6, 0x57,
   0xF9, 0x46, 0xCA, 0x13, 0x35, 0x5F, 0xE1, 0x6E, 0xB2, 0x9B, 0xE0, 0x6D, 0xB7, 0x94, 0xF1, 0x5E,
   0xE2, 0x6B, 0xBD, 0x8A, 0xD3, 0x38, 0x48, 0xD8, 0x25, 0x6F, 0xB1, 0x9E, 0xEF, 0x7C, 0x84, 0xC1,
   0x0E, 0x12, 0x36, 0x5A, 0xEE, 0x7F, 0x81, 0xCE, 0x1F, 0x21, 0x63, 0xA5, 0xA2, 0xAB, 0xB0, 0x9D,
   0xEA, 0x73, 0x95, 0xF2, 0x5B, 0xED, 0x7A, 0x8E, 0xDF, 0x2C, 0x74, 0x9C, 0xE9, 0x76, 0x9A, 0xE3,
   0x68, 0xB8, 0x85, 0xC2, 0x0B, 0x1D, 0x27, 0x69, 0xBB, 0x80, 0xCD, 0x1A, 0x2E, 0x72, 0x96, 0xF7,
   0x54, 0xFC, 0x49, 0xDB, 0x20, 0x60, 0xA0, 0xAD, 0xBA, 0x83, 0xC8, 0x15, 0x3F, 0x41, 0xC3, 0x08,
   0x18, 0x28, 0x78, 0x88, 0xD5, 0x32, 0x56, 0xFA, 0x43, 0xC5, 0x02, 0x06, 0x0A, 0x1E, 0x22, 0x66,
   0xAA, 0xB3, 0x98, 0xE5, 0x62, 0xA6, 0xA7, 0xA4, 0xA1, 0xAE, 0xBF, 0x8C, 0xD9, 0x26, 0x6A, 0xBE,
   0x8F, 0xDC, 0x29, 0x7B, 0x8D, 0xDA, 0x23, 0x65, 0xAF, 0xBC, 0x89, 0xD6, 0x37, 0x59, 0xEB, 0x70,
   0x90, 0xFD, 0x4A, 0xDE, 0x2F, 0x71, 0x93, 0xF8, 0x45, 0xCF, 0x1C, 0x24, 0x6C, 0xB4, 0x91, 0xFE,
   0x4F, 0xD1, 0x3E, 0x42, 0xC6, 0x07, 0x09, 0x1B, 0x2D, 0x77, 0x99, 0xE6, 0x67, 0xA9, 0xB6, 0x97,
   0xF4, 0x51, 0xF3, 0x58, 0xE8, 0x75, 0x9F, 0xEC, 0x79, 0x8B, 0xD0, 0x3D, 0x47, 0xC9, 0x16, 0x3A,
   0x4E, 0xD2, 0x3B, 0x4D, 0xD7, 0x34, 0x5C, 0xE4, 0x61, 0xA3, 0xA8, 0xB5, 0x92, 0xFB, 0x40, 0xC0,
   0x0D, 0x17, 0x39, 0x4B, 0xDD, 0x2A, 0x7E, 0x82, 0xCB, 0x10, 0x30, 0x50, 0xF0, 0x5D, 0xE7, 0x64,
   0xAC, 0xB9, 0x86, 0xC7, 0x04, 0x0C, 0x14, 0x3C, 0x44, 0xCC, 0x19, 0x2B, 0x7D, 0x87, 0xC4]

/-- The rows of the matrices (src/kryptos_twofish.c:232-240). -/
def RS0 : W64 := 0x01A455875A58DB9E
def RS1 : W64 := 0xA45682F31EC668E5
def RS2 : W64 := 0x02A1FCC147AE3D19
def RS3 : W64 := 0xA455875A58DB9E03
def MDS0 : W32 := 0xEFEF5B01
def MDS1 : W32 := 0x015BEFEF
def MDS2 : W32 := 0xEF01EF5B
def MDS3 : W32 := 0x5BEF015B

/-- src/kryptos_twofish.c:242 -/
def wrol (w : W32) (l : Nat) : W32 := (w <<< l) ||| (w >>> (32 - l))
/-- src/kryptos_twofish.c:244 -/
def wror (w : W32) (l : Nat) : W32 := (w >>> l) ||| (w <<< (32 - l))
/-- src/kryptos_twofish.c:248; the arguments are nibbles, for which eight bits are enough. -/
def nror (n : Byte) (l : Nat) : Byte := ((n >>> l) ||| (n <<< (4 - l))) &&& 0xF

/-- The value put at the low end by `kryptos_twofish_qn_perm` (src/kryptos_twofish.c:254-264); its intermediate results are `int`, of which the
masks leave four bits. -/
def qVal (t : List Bytes) (x : Byte) : Out W32 := do
  let a0 := x >>> 4
  let b0 := x &&& 0xF
  let a1 := a0 ^^^ b0
  let b1 := (a0 ^^^ nror b0 1 ^^^ (a0 <<< 3)) &&& 0xF
  let a2 ← rd (← rd t 0) a1.toNat
  let b2 ← rd (← rd t 1) b1.toNat
  let a3 := a2 ^^^ b2
  let b3 := (a2 ^^^ nror b2 1 ^^^ (a2 <<< 3)) &&& 0xF
  let b4 ← rd (← rd t 3) b3.toNat
  let a4 ← rd (← rd t 2) a3.toNat
  .ok ((b4.setWidth 32 <<< 4) ||| a4.setWidth 32)

/-- `kryptos_twofish_q0_perm` and `kryptos_twofish_q1_perm`: the new value of `y` (src/kryptos_twofish.c:254-268). -/
def q0 (x : Byte) (y : W32) : Out W32 := do return (y <<< 8) ||| (← qVal q0lt x)
def q1 (x : Byte) (y : W32) : Out W32 := do return (y <<< 8) ||| (← qVal q1lt x)

/-- `kryptos_twofish_gfmul` (src/kryptos_twofish.c:286-289). -/
def gfmul (log alog : Bytes) (x y : Byte) : Out Byte := do
  if x ≠ 0 ∧ y ≠ 0 then
    let lx ← rd log x.toNat
    let ly ← rd log y.toNat
    rd alog ((lx.toNat + ly.toNat) % 0xFF)
  else .ok 0

/-- `kryptos_twofish_get_byte_n` (src/kryptos_twofish.c:291) for words of four and of eight bytes. -/
def byteN (x : W32) (n : Nat) : Byte := ((x >>> (32 - 8 - (n <<< 3))) &&& 0xFF).setWidth 8
def byteN64 (x : W64) (n : Nat) : Byte := ((x >>> (64 - 8 - (n <<< 3))) &&& 0xFF).setWidth 8

/-- One of the four terms of `kryptos_twofish_mds` (src/kryptos_twofish.c:306-313, 314-321, 322-329 and 330-337). -/
def mdsRow (tt row : W32) (n : Nat) : Out W32 := do
  let g0 ← gfmul mdsLog mdsAlog (byteN tt n) (byteN row 0)
  let g1 ← gfmul mdsLog mdsAlog (byteN tt n) (byteN row 1)
  let g2 ← gfmul mdsLog mdsAlog (byteN tt n) (byteN row 2)
  let g3 ← gfmul mdsLog mdsAlog (byteN tt n) (byteN row 3)
  .ok ((g0.setWidth 32 <<< 24) ||| (g1.setWidth 32 <<< 16) ||| (g2.setWidth 32 <<< 8) ||| g3.setWidth 32)

/-- `kryptos_twofish_mds`: the new value of `y` (src/kryptos_twofish.c:304-338). -/
def mds (y : W32) : Out W32 := do
  let y0 ← mdsRow y MDS0 0
  let y1 ← mdsRow y MDS1 1
  let y2 ← mdsRow y MDS2 2
  let y3 ← mdsRow y MDS3 3
  .ok (y0 ^^^ y1 ^^^ y2 ^^^ y3)

/-- src/kryptos_twofish.c:483-486 -/
def inv (v : W32) : W32 :=
  ((v &&& 0xFF000000) >>> 24) ||| ((v &&& 0x00FF0000) >>> 8) ||| ((v &&& 0x0000FF00) <<< 8) ||| ((v &&& 0x000000FF) <<< 24)

/-- One of the four terms of `kryptos_twofish_rs` (src/kryptos_twofish.c:343-358, 359-374, 375-390 and 391-406). -/
def rsRow (m row : W64) : Out W32 := do
  let g ← forLoop (fun n g => do return g ^^^ (← gfmul rsLog rsAlog (byteN64 m n) (byteN64 row n))) 8 0 0
  .ok (g.setWidth 32)

/-- `kryptos_twofish_rs` (src/kryptos_twofish.c:340-407). -/
def rs (m : W64) : Out W32 := do
  let r0 ← rsRow m RS0
  let r1 ← rsRow m RS1
  let r2 ← rsRow m RS2
  let r3 ← rsRow m RS3
  .ok (inv (r0 ||| (r1 <<< 8) ||| (r2 <<< 16) ||| (r3 <<< 24)))

/-- `kryptos_twofish_pht`: the new values of `t0` and `t1` (src/kryptos_twofish.c:409-413). -/
def pht (t0 t1 : W32) : W32 × W32 := (t0 + t1, (t0 + (t1 <<< 1)) &&& 0xFFFFFFFF)

/-- Four permutations in a row on the bytes of `tt`, as in src/kryptos_twofish.c:428-431. -/
def quad (p0 p1 p2 p3 : Byte → W32 → Out W32) (tt Kc : W32) : Out W32 := do
  let Kc ← p0 (byteN tt 0) Kc
  let Kc ← p1 (byteN tt 1) Kc
  let Kc ← p2 (byteN tt 2) Kc
  p3 (byteN tt 3) Kc

/-- The first part of `kryptos_twofish_hh` (src/kryptos_twofish.c:427-442): `tt` and `Kc`. -/
def hhTop (k : Nat) (S : List W32) (ix : Nat → Nat) (tt Kc : W32) : Out (W32 × W32) := do
  let s ← (if k = 4 then do
      let Kc ← quad q1 q0 q0 q1 tt Kc
      let Kc := Kc ^^^ (← rd S (ix 3))
      .ok (Kc, Kc)
    else .ok (tt, Kc))
  if 3 ≤ k then
    let Kc ← quad q1 q1 q0 q0 s.1 s.2
    let Kc := Kc ^^^ (← rd S (ix 2))
    .ok (Kc, Kc)
  else .ok s

/-- `kryptos_twofish_hh` (src/kryptos_twofish.c:425-460): the new value of `Kc`.  The arguments `S0` to `S3` of the macro are the elements
`ix 0` to `ix 3` of an array, of which the last two are evaluated for `k` above 2 and 3 only. -/
def hh (ic Kc : W32) (k : Nat) (S : List W32) (ix : Nat → Nat) : Out W32 := do
  let s ← hhTop k S ix ic Kc
  let Kc ← quad q0 q1 q0 q1 s.1 s.2
  let Kc := Kc ^^^ (← rd S (ix 1))
  let Kc ← quad q0 q0 q1 q1 Kc Kc
  let Kc := Kc ^^^ (← rd S (ix 0))
  let Kc ← quad q1 q0 q1 q0 Kc Kc
  mds Kc

/-- The input of the key schedule (src/kryptos_twofish.c:463-466 and 467-470). -/
def rho (i : W32) : W32 := (i <<< 24) ||| (i <<< 16) ||| (i <<< 8) ||| i

/-- `kryptos_twofish_h_iter`: the new values of `Kc` and `Kn` (src/kryptos_twofish.c:462-474). -/
def hIter (ic inn Kc Kn : W32) (k : Nat) (SM : List W32) : Out (W32 × W32) := do
  let Kc ← hh (rho ic) Kc k SM (fun j => 2 * j)
  let Kn ← hh (rho inn) Kn k SM (fun j => 2 * j + 1)
  let Kn := wrol Kn 8
  let (Kc, Kn) := pht Kc Kn
  .ok (Kc, wrol Kn 9)

/-- `kryptos_twofish_h` for `K + i` (src/kryptos_twofish.c:478-481, called in line 758). -/
def h (k : Nat) (SM : List W32) (i : Nat) (K : List W32) : Out (List W32) := do
  let (K0, K1) ← hIter (BitVec.ofNat 32 i) (BitVec.ofNat 32 (i + 1)) (← rd K i) (← rd K (i + 1)) k SM
  let K ← wr K i K0
  let K ← wr K (i + 1) K1
  let (K2, K3) ← hIter (BitVec.ofNat 32 (i + 2)) (BitVec.ofNat 32 (i + 3)) (← rd K (i + 2)) (← rd K (i + 3)) k SM
  let K ← wr K (i + 2) K2
  wr K (i + 3) K3

/-- `struct kryptos_twofish_subkeys` (src/kryptos_twofish.c:488-492). -/
structure Sks where
  K : List W32
  S : List W32
  k : Nat

/-- A word of the key (src/kryptos_twofish.c:633-636 and the like). -/
def keyWord (ek : Bytes) (i : Nat) : Out W32 := do
  let b3 ← rd ek (4 * i + 3)
  let b2 ← rd ek (4 * i + 2)
  let b1 ← rd ek (4 * i + 1)
  let b0 ← rd ek (4 * i)
  .ok (b3.setWidth 32 ||| (b2.setWidth 32 <<< 8) ||| (b1.setWidth 32 <<< 16) ||| (b0.setWidth 32 <<< 24))

/-- The array `M` (src/kryptos_twofish.c:631-721) for `k` = 2, 3 and 4: its `2 * k` words are followed by its first words. -/
def keyWords (k : Nat) (ek : Bytes) : Out (List W32) := do
  let M ← (List.range (2 * k)).mapM (keyWord ek)
  .ok ((M ++ M).take 8)

/-- `kryptos_twofish_eval_skeys` (src/kryptos_twofish.c:615-767) with the filling of the key (lines 575-612), for `k` = 2, 3 and 4: the key is
cut or filled with zeros to `8 * k` bytes. -/
def schedule (stale : Sks) (k : Nat) (key : Bytes) : Out Sks := do
  let M ← keyWords k (key.take (8 * k) ++ List.replicate (8 * k - key.length) 0)
  let S ← forLoop (fun s S => do
    let m0 ← rd M (s <<< 1)
    let m1 ← rd M ((s <<< 1) + 1)
    wr S (k - s - 1) (← rs ((m0.setWidth 64 <<< 32) ||| m1.setWidth 64))) k 0 stale.S
  let K ← forLoop (fun j K => h k M (4 * j) K) 10 0 stale.K
  .ok ⟨K, S, k⟩

/-- `kryptos_twofish_f` with `kryptos_twofish_g`: the new values of `f0` and `f1` (src/kryptos_twofish.c:415-423 and 293-298). -/
def f (sks : Sks) (r0 r1 f0 f1 K0 K1 : W32) : Out (W32 × W32) := do
  let f0 ← hh (inv r0) f0 sks.k sks.S id
  let f1 ← hh (wror (inv r1) 8) f1 sks.k sks.S id
  let (f0, f1) := pht f0 f1
  .ok (f0 + K0, f1 + K1)

/-- The registers of the block functions: `R`, `f0` and `f1`. -/
structure St where
  R : Four 32
  f0 : W32
  f1 : W32

/-- `kryptos_twofish_round_iter` up to the assignments, in round `r` (src/kryptos_twofish.c:796-800). -/
def round (sks : Sks) (r : Nat) (s : St) : Out (W32 × W32) := do
  let F ← f sks s.R.a s.R.b s.f0 s.f1 (← rd sks.K (2 * r + 8)) (← rd sks.K (2 * r + 9))
  .ok (wror (F.1 ^^^ s.R.c) 1, wrol s.R.d 1 ^^^ F.2)

/-- The rounds with `next` (src/kryptos_twofish.c:811-816) and with `done` (lines 818-821). -/
def roundNext (sks : Sks) (r : Nat) (s : St) : Out St := do
  let F ← round sks r s
  .ok ⟨⟨F.1, F.2, s.R.a, s.R.b⟩, F.1, F.2⟩
def roundDone (sks : Sks) (r : Nat) (s : St) : Out St := do
  let F ← round sks r s
  .ok ⟨⟨s.R.a, s.R.b, F.1, F.2⟩, F.1, F.2⟩

/-- Four bytes as a word (src/kryptos_twofish.c:773-776 and the like). -/
def ldWord (b : Bytes) (i : Nat) : Out W32 := do
  let b3 ← rd b (4 * i + 3)
  let b2 ← rd b (4 * i + 2)
  let b1 ← rd b (4 * i + 1)
  let b0 ← rd b (4 * i)
  .ok ((b3.setWidth 32 <<< 24) ||| (b2.setWidth 32 <<< 16) ||| (b1.setWidth 32 <<< 8) ||| b0.setWidth 32)

/-- src/kryptos_twofish.c:773-788 and 879-894 -/
def load (b : Bytes) : Out (Four 32) := do
  .ok ⟨← ldWord b 0, ← ldWord b 1, ← ldWord b 2, ← ldWord b 3⟩

/-- src/kryptos_twofish.c:852-867 and 963-978 -/
def store (R : Four 32) : Bytes :=
  R.words.flatMap fun x => [byteN x 3, byteN x 2, byteN x 1, byteN x 0]

/-- `R[0] ^= K[n]` to `R[3] ^= K[n + 3]` (src/kryptos_twofish.c:791-794, 847-850 and 958-961). -/
def whiten (K : List W32) (n : Nat) (R : Four 32) : Out (Four 32) := do
  .ok ⟨R.a ^^^ (← rd K n), R.b ^^^ (← rd K (n + 1)), R.c ^^^ (← rd K (n + 2)), R.d ^^^ (← rd K (n + 3))⟩

/-- `kryptos_twofish_encrypt_block` (src/kryptos_twofish.c:769-873). -/
def encBlock (sks : Sks) (block : Bytes) : Out Bytes := do
  let R ← whiten sks.K 0 (← load block)
  let s ← forLoop (roundNext sks) 15 0 ⟨R, 0, 0⟩
  let s ← roundDone sks 15 s
  let R ← whiten sks.K 4 s.R
  .ok (store R)

/-- `kryptos_twofish_round_iter_next_left` in round `r` (src/kryptos_twofish.c:914-919). -/
def left (sks : Sks) (r : Nat) (s : St) : Out St := do
  let F ← f sks s.R.c s.R.d s.f0 s.f1 (← rd sks.K (2 * r + 8)) (← rd sks.K (2 * r + 9))
  .ok ⟨⟨wrol s.R.a 1 ^^^ F.1, wror (s.R.b ^^^ F.2) 1, s.R.c, s.R.d⟩, F.1, F.2⟩

/-- `kryptos_twofish_round_iter_next_right` in round `r` (src/kryptos_twofish.c:921-926). -/
def right (sks : Sks) (r : Nat) (s : St) : Out St := do
  let F ← f sks s.R.a s.R.b s.f0 s.f1 (← rd sks.K (2 * r + 8)) (← rd sks.K (2 * r + 9))
  .ok ⟨⟨s.R.a, s.R.b, wrol s.R.c 1 ^^^ F.1, wror (s.R.d ^^^ F.2) 1⟩, F.1, F.2⟩

/-- `kryptos_twofish_decrypt_block` (src/kryptos_twofish.c:875-984); two rounds make one turn of the loop. -/
def decBlock (sks : Sks) (block : Bytes) : Out Bytes := do
  let R ← load block
  let s : St := ⟨⟨R.c ^^^ (← rd sks.K 6), R.d ^^^ (← rd sks.K 7), R.a ^^^ (← rd sks.K 4), R.b ^^^ (← rd sks.K 5)⟩, R.c, R.d⟩
  let s ← forLoop (fun j s => do right sks (14 - 2 * j) (← left sks (15 - 2 * j) s)) 8 0 s
  let R ← whiten sks.K 0 s.R
  .ok (store R)

/-- One block of the processors (src/kryptos_twofish.c:514-529, 535-550 and 556-571): `k` is 2, 3 or 4. -/
def enc (stale : Sks) (k : Nat) (key block : Bytes) : Out Bytes := do encBlock (← schedule stale k key) block
def dec (stale : Sks) (k : Nat) (key block : Bytes) : Out Bytes := do decBlock (← schedule stale k key) block

end Kryptos.Twofish
