import Verif.Props.C60
import Verif.Spec.Crc
/-!
# The tests of the crate with the actual cryptography, run on the model

/repo/tests/crypto/key_mgmt.rs and /repo/tests/crypto/eapol.rs.  What takes too
long or too deep for the kernel is run by the interpreter (`#guard`).
-/
namespace Verif.Tests

open Verif Spec

/-! `test_prf` -/
example : letI := realHmac
    prf (List.replicate 20 0x0b) [
    0x70, 0x72, 0x65, 0x66, 0x69, 0x78] [
    0x48, 0x69, 0x20, 0x54, 0x68, 0x65, 0x72, 0x65] 24 = [
    0xbc, 0xd4, 0xc6, 0x50, 0xb3, 0x0b, 0x96, 0x84, 0x95, 0x18, 0x29, 0xe0, 0xd7, 0x5f, 0x9d, 0x54,
    0xb8, 0x62, 0x17, 0x5e, 0xd9, 0xf0, 0x06, 0x06] := by
  decide +kernel
example : letI := realHmac
    prf ([
    0x4a, 0x65, 0x66, 0x65]) [
    0x70, 0x72, 0x65, 0x66, 0x69, 0x78, 0x2d, 0x32] [
    0x77, 0x68, 0x61, 0x74, 0x20, 0x64, 0x6f, 0x20, 0x79, 0x61, 0x20, 0x77, 0x61, 0x6e, 0x74, 0x20,
    0x66, 0x6f, 0x72, 0x20, 0x6e, 0x6f, 0x74, 0x68, 0x69, 0x6e, 0x67, 0x3f] 32 = [
    0x47, 0xc4, 0x90, 0x8e, 0x30, 0xc9, 0x47, 0x52, 0x1a, 0xd2, 0x0b, 0xe9, 0x05, 0x34, 0x50, 0xec,
    0xbe, 0xa2, 0x3d, 0x3a, 0xa6, 0x04, 0xb7, 0x73, 0x26, 0xd8, 0xb3, 0x82, 0x5f, 0xf7, 0x47, 0x5c] := by
  decide +kernel
example : letI := realHmac
    prf (List.replicate 80 0xaa) [
    0x70, 0x72, 0x65, 0x66, 0x69, 0x78, 0x2d, 0x33] [
    0x54, 0x65, 0x73, 0x74, 0x20, 0x55, 0x73, 0x69, 0x6e, 0x67, 0x20, 0x4c, 0x61, 0x72, 0x67, 0x65,
    0x72, 0x20, 0x54, 0x68, 0x61, 0x6e, 0x20, 0x42, 0x6c, 0x6f, 0x63, 0x6b, 0x2d, 0x53, 0x69, 0x7a,
    0x65, 0x20, 0x4b, 0x65, 0x79, 0x20, 0x2d, 0x20, 0x48, 0x61, 0x73, 0x68, 0x20, 0x4b, 0x65, 0x79,
    0x20, 0x46, 0x69, 0x72, 0x73, 0x74] 48 = [
    0x0a, 0xb6, 0xc3, 0x3c, 0xcf, 0x70, 0xd0, 0xd7, 0x36, 0xf4, 0xb0, 0x4c, 0x8a, 0x73, 0x73, 0x25,
    0x55, 0x11, 0xab, 0xc5, 0x07, 0x37, 0x13, 0x16, 0x3b, 0xd0, 0xb8, 0xc9, 0xee, 0xb7, 0xe1, 0x95,
    0x6f, 0xa0, 0x66, 0x82, 0x0a, 0x73, 0xdd, 0xee, 0x3f, 0x6d, 0x3b, 0xd4, 0x07, 0xe0, 0x68, 0x2a] := by
  decide +kernel
example : letI := realHmac
    prf (List.replicate 20 0x0b) [
    0x70, 0x72, 0x65, 0x66, 0x69, 0x78, 0x2d, 0x34] [
    0x48, 0x69, 0x20, 0x54, 0x68, 0x65, 0x72, 0x65, 0x20, 0x41, 0x67, 0x61, 0x69, 0x6e] 64 = [
    0x24, 0x8c, 0xfb, 0xc5, 0x32, 0xab, 0x38, 0xff, 0xa4, 0x83, 0xc8, 0xa2, 0xe4, 0x0b, 0xf1, 0x70,
    0xeb, 0x54, 0x2a, 0x2e, 0x09, 0x16, 0xd7, 0xbf, 0x6d, 0x97, 0xda, 0x2c, 0x4c, 0x5c, 0xa8, 0x77,
    0x73, 0x6c, 0x53, 0xa6, 0x5b, 0x03, 0xfa, 0x4b, 0x37, 0x45, 0xce, 0x76, 0x13, 0xf6, 0xad, 0x68,
    0xe0, 0xe4, 0xa7, 0x98, 0xb7, 0xcf, 0x69, 0x1c, 0x96, 0x17, 0x6f, 0xd6, 0x34, 0xa5, 0x9a, 0x49] := by
  decide +kernel

/-! `test_ptk_derivation` -/
example : letI := realHmac
    derivePtk [
    0xee, 0x51, 0x88, 0x37, 0x93, 0xa6, 0xf6, 0x8e, 0x96, 0x15, 0xfe, 0x73, 0xc8, 0x0a, 0x3a, 0xa6,
    0xf2, 0xdd, 0x0e, 0xa5, 0x37, 0xbc, 0xe6, 0x27, 0xb9, 0x29, 0x18, 0x3c, 0xc6, 0xe5, 0x79, 0x25]
      ⟨[0x00, 0x14, 0x6c, 0x7e, 0x40, 0x80], rfl⟩ ⟨[0x00, 0x13, 0x46, 0xfe, 0x32, 0x0c], rfl⟩
      ⟨[
    0x22, 0x58, 0x54, 0xb0, 0x44, 0x4d, 0xe3, 0xaf, 0x06, 0xd1, 0x49, 0x2b, 0x85, 0x29, 0x84, 0xf0,
    0x4c, 0xf6, 0x27, 0x4c, 0x0e, 0x32, 0x18, 0xb8, 0x68, 0x17, 0x56, 0x86, 0x4d, 0xb7, 0xa0, 0x55], rfl⟩
      ⟨[
    0x59, 0x16, 0x8b, 0xc3, 0xa5, 0xdf, 0x18, 0xd7, 0x1e, 0xfb, 0x64, 0x23, 0xf3, 0x40, 0x08, 0x8d,
    0xab, 0x9e, 0x1b, 0xa2, 0xbb, 0xc5, 0x86, 0x59, 0xe0, 0x7b, 0x37, 0x64, 0xb0, 0xde, 0x85, 0x70], rfl⟩ 80 = [
    0xea, 0x0e, 0x40, 0x46, 0x33, 0xc8, 0x02, 0x45, 0x03, 0x02, 0x86, 0x8c, 0xca, 0xa7, 0x49, 0xde,
    0x5c, 0xba, 0x5a, 0xbc, 0xb2, 0x67, 0xe2, 0xde, 0x1d, 0x5e, 0x21, 0xe5, 0x7a, 0xcc, 0xd5, 0x07,
    0x9b, 0x31, 0xe9, 0xff, 0x22, 0x0e, 0x13, 0x2a, 0xe4, 0xf6, 0xed, 0x9e, 0xf1, 0xac, 0xc8, 0x85,
    0x45, 0x82, 0x5f, 0xc3, 0x2e, 0xe5, 0x59, 0x61, 0x39, 0x5a, 0xe4, 0x37, 0x34, 0xd6, 0xc1, 0x07,
    0x98, 0xef, 0x5a, 0xfe, 0x42, 0xc0, 0x74, 0x26, 0x47, 0x18, 0x68, 0xa5, 0x77, 0xd4, 0xd1, 0x7e] := by
  decide +kernel

/-! `test_eapol_serde` -/
def eapolFrame : Bytes := [
    0x08, 0x02, 0x2c, 0x00, 0x00, 0x0d, 0x93, 0x82, 0x36, 0x3a, 0x00, 0x0c, 0x41, 0x82, 0xb2, 0x55,
    0x00, 0x0c, 0x41, 0x82, 0xb2, 0x55, 0xc0, 0xfc, 0xaa, 0xaa, 0x03, 0x00, 0x00, 0x00, 0x88, 0x8e,
    0x02, 0x03, 0x00, 0xaf, 0x02, 0x13, 0xca, 0x00, 0x10, 0x00, 0x00, 0x00, 0x00, 0x00, 0x00, 0x00,
    0x01, 0x3e, 0x8e, 0x96, 0x7d, 0xac, 0xd9, 0x60, 0x32, 0x4c, 0xac, 0x5b, 0x6a, 0xa7, 0x21, 0x23,
    0x5b, 0xf5, 0x7b, 0x94, 0x97, 0x71, 0xc8, 0x67, 0x98, 0x9f, 0x49, 0xd0, 0x4e, 0xd4, 0x7c, 0x69,
    0x33, 0xf5, 0x7b, 0x94, 0x97, 0x71, 0xc8, 0x67, 0x98, 0x9f, 0x49, 0xd0, 0x4e, 0xd4, 0x7c, 0x69,
    0x34, 0xcf, 0x02, 0x00, 0x00, 0x00, 0x00, 0x00, 0x00, 0x00, 0x00, 0x00, 0x00, 0x00, 0x00, 0x00,
    0x00, 0x7d, 0x0a, 0xf6, 0xdf, 0x51, 0xe9, 0x9c, 0xde, 0x7a, 0x18, 0x74, 0x53, 0xf0, 0xf9, 0x35,
    0x37, 0x00, 0x50, 0xcf, 0xa7, 0x2c, 0xde, 0x35, 0xb2, 0xc1, 0xe2, 0x31, 0x92, 0x55, 0x80, 0x6a,
    0xb3, 0x64, 0x17, 0x9f, 0xd9, 0x67, 0x30, 0x41, 0xb9, 0xa5, 0x93, 0x9f, 0xa1, 0xa2, 0x01, 0x0d,
    0x2a, 0xc7, 0x94, 0xe2, 0x51, 0x68, 0x05, 0x5f, 0x79, 0x4d, 0xdc, 0x1f, 0xdf, 0xae, 0x35, 0x21,
    0xf4, 0x44, 0x6b, 0xfd, 0x11, 0xda, 0x98, 0x34, 0x5f, 0x54, 0x3d, 0xf6, 0xce, 0x19, 0x9d, 0xf8,
    0xfe, 0x48, 0xf8, 0xcd, 0xd1, 0x7a, 0xdc, 0xa8, 0x7b, 0xf4, 0x57, 0x11, 0x18, 0x3c, 0x49, 0x6d,
    0x41, 0xaa, 0x0c]
def kck : Arr 16 := ⟨[
    0xb1, 0xcd, 0x79, 0x27, 0x16, 0x76, 0x29, 0x03, 0xf7, 0x23, 0x42, 0x4c, 0xd7, 0xd1, 0x65, 0x11], rfl⟩
def kek : Arr 16 := ⟨[
    0x82, 0xa6, 0x44, 0x13, 0x3b, 0xfa, 0x4e, 0x0b, 0x75, 0xd9, 0x6d, 0x23, 0x08, 0x35, 0x84, 0x33], rfl⟩
/-- Deserialise, zero the MIC, serialise. -/
def eapolSerde [ScrollRule] [HmacSha1] [AesKw] [Crc32] : Res Bytes := do
  let header ← pread readDataHeader 0 eapolFrame
  let f ← deserializeEapolDataFrame (some kck) (some kek) eapolFrame 100 .Psk false
  let (out, written) ← serializeEapolDataFrame (some kck) (some kek) ⟨header, some ⟨Arr.zero 3, 0x888e,
    { f with key_mic := (Arr.zero 16).val, key_data := bytesObj f.key_data }⟩⟩ (List.replicate 300 0) 100
  pure (out.take written)
#guard letI : ScrollRule := ⟨false⟩; letI := realHmac; letI := realKw; letI := ieeeCrc
  eapolSerde = .ok eapolFrame
#guard letI : ScrollRule := ⟨true⟩; letI := realHmac; letI := realKw; letI := ieeeCrc
  eapolSerde = .ok eapolFrame

/-! `test_passphrase_to_psk_mapping`, the first vector -/
#guard pbkdf2Sha1 [0x70, 0x61, 0x73, 0x73, 0x77, 0x6f, 0x72, 0x64] [0x49, 0x45, 0x45, 0x45] 4096 32 = [
    0xf4, 0x2c, 0x6f, 0xc5, 0x2d, 0xf0, 0xeb, 0xef, 0x9e, 0xbb, 0x4b, 0x90, 0xb3, 0x8a, 0x5f, 0x90, 0x2e, 0x83,
    0xfe, 0x1b, 0x13, 0x5a, 0x70, 0xe2, 0x3a, 0xed, 0x76, 0x2e, 0x97, 0x10, 0xa1, 0x2e]

end Verif.Tests
