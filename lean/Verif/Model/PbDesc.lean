/-!
# The descriptors of the protocol embedded in the Go and the Python code

Copied byte by byte.
-/
namespace Comfo.Pb

set_option maxRecDepth 20000

/-- `rpc/comfo/comfo.pb.go:1198-1374` `file_comfo_proto_rawDesc`. -/
def goDesc : List UInt8 := [
  0x0a, 0x0b, 0x63, 0x6f, 0x6d, 0x66, 0x6f, 0x2e, 0x70, 0x72, 0x6f, 0x74, 0x6f, 0x12, 0x09, 0x63,
  0x6f, 0x6d, 0x66, 0x6f, 0x2e, 0x61, 0x70, 0x69, 0x22, 0x06, 0x0a, 0x04, 0x4e, 0x6f, 0x6f, 0x70,
  0x22, 0x76, 0x0a, 0x06, 0x42, 0x79, 0x70, 0x61, 0x73, 0x73, 0x12, 0x16, 0x0a, 0x06, 0x46, 0x61,
  0x63, 0x74, 0x6f, 0x72, 0x18, 0x01, 0x20, 0x01, 0x28, 0x0d, 0x52, 0x06, 0x46, 0x61, 0x63, 0x74,
  0x6f, 0x72, 0x12, 0x14, 0x0a, 0x05, 0x4c, 0x65, 0x76, 0x65, 0x6c, 0x18, 0x02, 0x20, 0x01, 0x28,
  0x0d, 0x52, 0x05, 0x4c, 0x65, 0x76, 0x65, 0x6c, 0x12, 0x1e, 0x0a, 0x0a, 0x43, 0x6f, 0x72, 0x72,
  0x65, 0x63, 0x74, 0x69, 0x6f, 0x6e, 0x18, 0x03, 0x20, 0x01, 0x28, 0x0d, 0x52, 0x0a, 0x43, 0x6f,
  0x72, 0x72, 0x65, 0x63, 0x74, 0x69, 0x6f, 0x6e, 0x12, 0x1e, 0x0a, 0x0a, 0x53, 0x75, 0x6d, 0x6d,
  0x65, 0x72, 0x4d, 0x6f, 0x64, 0x65, 0x18, 0x04, 0x20, 0x01, 0x28, 0x08, 0x52, 0x0a, 0x53, 0x75,
  0x6d, 0x6d, 0x65, 0x72, 0x4d, 0x6f, 0x64, 0x65, 0x22, 0x94, 0x01, 0x0a, 0x08, 0x42, 0x6f, 0x6f,
  0x74, 0x49, 0x6e, 0x66, 0x6f, 0x12, 0x22, 0x0a, 0x0c, 0x4d, 0x61, 0x6a, 0x6f, 0x72, 0x56, 0x65,
  0x72, 0x73, 0x69, 0x6f, 0x6e, 0x18, 0x01, 0x20, 0x01, 0x28, 0x0d, 0x52, 0x0c, 0x4d, 0x61, 0x6a,
  0x6f, 0x72, 0x56, 0x65, 0x72, 0x73, 0x69, 0x6f, 0x6e, 0x12, 0x22, 0x0a, 0x0c, 0x4d, 0x69, 0x6e,
  0x6f, 0x72, 0x56, 0x65, 0x72, 0x73, 0x69, 0x6f, 0x6e, 0x18, 0x02, 0x20, 0x01, 0x28, 0x0d, 0x52,
  0x0c, 0x4d, 0x69, 0x6e, 0x6f, 0x72, 0x56, 0x65, 0x72, 0x73, 0x69, 0x6f, 0x6e, 0x12, 0x20, 0x0a,
  0x0b, 0x42, 0x65, 0x74, 0x61, 0x56, 0x65, 0x72, 0x73, 0x69, 0x6f, 0x6e, 0x18, 0x03, 0x20, 0x01,
  0x28, 0x0d, 0x52, 0x0b, 0x42, 0x65, 0x74, 0x61, 0x56, 0x65, 0x72, 0x73, 0x69, 0x6f, 0x6e, 0x12,
  0x1e, 0x0a, 0x0a, 0x44, 0x65, 0x76, 0x69, 0x63, 0x65, 0x4e, 0x61, 0x6d, 0x65, 0x18, 0x04, 0x20,
  0x01, 0x28, 0x09, 0x52, 0x0a, 0x44, 0x65, 0x76, 0x69, 0x63, 0x65, 0x4e, 0x61, 0x6d, 0x65, 0x22,
  0x31, 0x0a, 0x0d, 0x43, 0x6f, 0x6d, 0x66, 0x6f, 0x72, 0x74, 0x54, 0x61, 0x72, 0x67, 0x65, 0x74,
  0x12, 0x20, 0x0a, 0x0b, 0x43, 0x6f, 0x6d, 0x66, 0x6f, 0x72, 0x74, 0x54, 0x65, 0x6d, 0x70, 0x18,
  0x01, 0x20, 0x01, 0x28, 0x0d, 0x52, 0x0b, 0x43, 0x6f, 0x6d, 0x66, 0x6f, 0x72, 0x74, 0x54, 0x65,
  0x6d, 0x70, 0x22, 0x8b, 0x01, 0x0a, 0x0f, 0x43, 0x6f, 0x6d, 0x66, 0x6f, 0x72, 0x74, 0x4d, 0x6f,
  0x64, 0x69, 0x66, 0x69, 0x65, 0x64, 0x12, 0x1a, 0x0a, 0x08, 0x4d, 0x6f, 0x64, 0x69, 0x66, 0x69,
  0x65, 0x64, 0x18, 0x01, 0x20, 0x01, 0x28, 0x08, 0x52, 0x08, 0x4d, 0x6f, 0x64, 0x69, 0x66, 0x69,
  0x65, 0x64, 0x12, 0x22, 0x0a, 0x0c, 0x4f, 0x72, 0x69, 0x67, 0x69, 0x6e, 0x61, 0x6c, 0x54, 0x65,
  0x6d, 0x70, 0x18, 0x02, 0x20, 0x01, 0x28, 0x0d, 0x52, 0x0c, 0x4f, 0x72, 0x69, 0x67, 0x69, 0x6e,
  0x61, 0x6c, 0x54, 0x65, 0x6d, 0x70, 0x12, 0x1e, 0x0a, 0x0a, 0x54, 0x61, 0x72, 0x67, 0x65, 0x74,
  0x54, 0x65, 0x6d, 0x70, 0x18, 0x03, 0x20, 0x01, 0x28, 0x0d, 0x52, 0x0a, 0x54, 0x61, 0x72, 0x67,
  0x65, 0x74, 0x54, 0x65, 0x6d, 0x70, 0x12, 0x18, 0x0a, 0x07, 0x52, 0x65, 0x71, 0x54, 0x69, 0x6d,
  0x65, 0x18, 0x04, 0x20, 0x01, 0x28, 0x09, 0x52, 0x07, 0x52, 0x65, 0x71, 0x54, 0x69, 0x6d, 0x65,
  0x22, 0x20, 0x0a, 0x06, 0x45, 0x72, 0x72, 0x6f, 0x72, 0x73, 0x12, 0x16, 0x0a, 0x06, 0x46, 0x69,
  0x6c, 0x74, 0x65, 0x72, 0x18, 0x01, 0x20, 0x01, 0x28, 0x08, 0x52, 0x06, 0x46, 0x69, 0x6c, 0x74,
  0x65, 0x72, 0x22, 0x7a, 0x0a, 0x04, 0x46, 0x61, 0x6e, 0x73, 0x12, 0x1c, 0x0a, 0x09, 0x49, 0x6e,
  0x50, 0x65, 0x72, 0x63, 0x65, 0x6e, 0x74, 0x18, 0x01, 0x20, 0x01, 0x28, 0x0d, 0x52, 0x09, 0x49,
  0x6e, 0x50, 0x65, 0x72, 0x63, 0x65, 0x6e, 0x74, 0x12, 0x1e, 0x0a, 0x0a, 0x4f, 0x75, 0x74, 0x50,
  0x65, 0x72, 0x63, 0x65, 0x6e, 0x74, 0x18, 0x02, 0x20, 0x01, 0x28, 0x0d, 0x52, 0x0a, 0x4f, 0x75,
  0x74, 0x50, 0x65, 0x72, 0x63, 0x65, 0x6e, 0x74, 0x12, 0x18, 0x0a, 0x07, 0x49, 0x6e, 0x53, 0x70,
  0x65, 0x65, 0x64, 0x18, 0x03, 0x20, 0x01, 0x28, 0x0d, 0x52, 0x07, 0x49, 0x6e, 0x53, 0x70, 0x65,
  0x65, 0x64, 0x12, 0x1a, 0x0a, 0x08, 0x4f, 0x75, 0x74, 0x53, 0x70, 0x65, 0x65, 0x64, 0x18, 0x04,
  0x20, 0x01, 0x28, 0x0d, 0x52, 0x08, 0x4f, 0x75, 0x74, 0x53, 0x70, 0x65, 0x65, 0x64, 0x22, 0xcf,
  0x02, 0x0a, 0x0b, 0x46, 0x61, 0x6e, 0x50, 0x72, 0x6f, 0x66, 0x69, 0x6c, 0x65, 0x73, 0x12, 0x18,
  0x0a, 0x07, 0x4f, 0x75, 0x74, 0x41, 0x77, 0x61, 0x79, 0x18, 0x01, 0x20, 0x01, 0x28, 0x0d, 0x52,
  0x07, 0x4f, 0x75, 0x74, 0x41, 0x77, 0x61, 0x79, 0x12, 0x16, 0x0a, 0x06, 0x4f, 0x75, 0x74, 0x4c,
  0x6f, 0x77, 0x18, 0x02, 0x20, 0x01, 0x28, 0x0d, 0x52, 0x06, 0x4f, 0x75, 0x74, 0x4c, 0x6f, 0x77,
  0x12, 0x16, 0x0a, 0x06, 0x4f, 0x75, 0x74, 0x4d, 0x69, 0x64, 0x18, 0x03, 0x20, 0x01, 0x28, 0x0d,
  0x52, 0x06, 0x4f, 0x75, 0x74, 0x4d, 0x69, 0x64, 0x12, 0x18, 0x0a, 0x07, 0x4f, 0x75, 0x74, 0x48,
  0x69, 0x67, 0x68, 0x18, 0x04, 0x20, 0x01, 0x28, 0x0d, 0x52, 0x07, 0x4f, 0x75, 0x74, 0x48, 0x69,
  0x67, 0x68, 0x12, 0x20, 0x0a, 0x0b, 0x49, 0x6e, 0x46, 0x61, 0x6e, 0x41, 0x63, 0x74, 0x69, 0x76,
  0x65, 0x18, 0x05, 0x20, 0x01, 0x28, 0x08, 0x52, 0x0b, 0x49, 0x6e, 0x46, 0x61, 0x6e, 0x41, 0x63,
  0x74, 0x69, 0x76, 0x65, 0x12, 0x16, 0x0a, 0x06, 0x49, 0x6e, 0x41, 0x77, 0x61, 0x79, 0x18, 0x06,
  0x20, 0x01, 0x28, 0x0d, 0x52, 0x06, 0x49, 0x6e, 0x41, 0x77, 0x61, 0x79, 0x12, 0x14, 0x0a, 0x05,
  0x49, 0x6e, 0x4c, 0x6f, 0x77, 0x18, 0x07, 0x20, 0x01, 0x28, 0x0d, 0x52, 0x05, 0x49, 0x6e, 0x4c,
  0x6f, 0x77, 0x12, 0x14, 0x0a, 0x05, 0x49, 0x6e, 0x4d, 0x69, 0x64, 0x18, 0x08, 0x20, 0x01, 0x28,
  0x0d, 0x52, 0x05, 0x49, 0x6e, 0x4d, 0x69, 0x64, 0x12, 0x16, 0x0a, 0x06, 0x49, 0x6e, 0x48, 0x69,
  0x67, 0x68, 0x18, 0x09, 0x20, 0x01, 0x28, 0x0d, 0x52, 0x06, 0x49, 0x6e, 0x48, 0x69, 0x67, 0x68,
  0x12, 0x1e, 0x0a, 0x0a, 0x43, 0x75, 0x72, 0x72, 0x65, 0x6e, 0x74, 0x4f, 0x75, 0x74, 0x18, 0x0a,
  0x20, 0x01, 0x28, 0x0d, 0x52, 0x0a, 0x43, 0x75, 0x72, 0x72, 0x65, 0x6e, 0x74, 0x4f, 0x75, 0x74,
  0x12, 0x1c, 0x0a, 0x09, 0x43, 0x75, 0x72, 0x72, 0x65, 0x6e, 0x74, 0x49, 0x6e, 0x18, 0x0b, 0x20,
  0x01, 0x28, 0x0d, 0x52, 0x09, 0x43, 0x75, 0x72, 0x72, 0x65, 0x6e, 0x74, 0x49, 0x6e, 0x12, 0x20,
  0x0a, 0x0b, 0x43, 0x75, 0x72, 0x72, 0x65, 0x6e, 0x74, 0x4d, 0x6f, 0x64, 0x65, 0x18, 0x0c, 0x20,
  0x01, 0x28, 0x0d, 0x52, 0x0b, 0x43, 0x75, 0x72, 0x72, 0x65, 0x6e, 0x74, 0x4d, 0x6f, 0x64, 0x65,
  0x22, 0x48, 0x0a, 0x10, 0x46, 0x61, 0x6e, 0x50, 0x72, 0x6f, 0x66, 0x69, 0x6c, 0x65, 0x54, 0x61,
  0x72, 0x67, 0x65, 0x74, 0x12, 0x12, 0x0a, 0x04, 0x4d, 0x6f, 0x64, 0x65, 0x18, 0x01, 0x20, 0x01,
  0x28, 0x0d, 0x52, 0x04, 0x4d, 0x6f, 0x64, 0x65, 0x12, 0x20, 0x0a, 0x0b, 0x54, 0x61, 0x72, 0x67,
  0x65, 0x74, 0x53, 0x70, 0x65, 0x65, 0x64, 0x18, 0x02, 0x20, 0x01, 0x28, 0x0d, 0x52, 0x0b, 0x54,
  0x61, 0x72, 0x67, 0x65, 0x74, 0x53, 0x70, 0x65, 0x65, 0x64, 0x22, 0x92, 0x01, 0x0a, 0x12, 0x46,
  0x61, 0x6e, 0x50, 0x72, 0x6f, 0x66, 0x69, 0x6c, 0x65, 0x4d, 0x6f, 0x64, 0x69, 0x66, 0x69, 0x65,
  0x64, 0x12, 0x1a, 0x0a, 0x08, 0x4d, 0x6f, 0x64, 0x69, 0x66, 0x69, 0x65, 0x64, 0x18, 0x01, 0x20,
  0x01, 0x28, 0x08, 0x52, 0x08, 0x4d, 0x6f, 0x64, 0x69, 0x66, 0x69, 0x65, 0x64, 0x12, 0x24, 0x0a,
  0x0d, 0x4f, 0x72, 0x69, 0x67, 0x69, 0x6e, 0x61, 0x6c, 0x53, 0x70, 0x65, 0x65, 0x64, 0x18, 0x02,
  0x20, 0x01, 0x28, 0x0d, 0x52, 0x0d, 0x4f, 0x72, 0x69, 0x67, 0x69, 0x6e, 0x61, 0x6c, 0x53, 0x70,
  0x65, 0x65, 0x64, 0x12, 0x20, 0x0a, 0x0b, 0x54, 0x61, 0x72, 0x67, 0x65, 0x74, 0x53, 0x70, 0x65,
  0x65, 0x64, 0x18, 0x03, 0x20, 0x01, 0x28, 0x0d, 0x52, 0x0b, 0x54, 0x61, 0x72, 0x67, 0x65, 0x74,
  0x53, 0x70, 0x65, 0x65, 0x64, 0x12, 0x18, 0x0a, 0x07, 0x52, 0x65, 0x71, 0x54, 0x69, 0x6d, 0x65,
  0x18, 0x04, 0x20, 0x01, 0x28, 0x09, 0x52, 0x07, 0x52, 0x65, 0x71, 0x54, 0x69, 0x6d, 0x65, 0x22,
  0x34, 0x0a, 0x0e, 0x46, 0x61, 0x6e, 0x53, 0x70, 0x65, 0x65, 0x64, 0x54, 0x61, 0x72, 0x67, 0x65,
  0x74, 0x12, 0x10, 0x0a, 0x03, 0x41, 0x62, 0x73, 0x18, 0x01, 0x20, 0x01, 0x28, 0x0d, 0x52, 0x03,
  0x41, 0x62, 0x73, 0x12, 0x10, 0x0a, 0x03, 0x52, 0x65, 0x6c, 0x18, 0x02, 0x20, 0x01, 0x28, 0x08,
  0x52, 0x03, 0x52, 0x65, 0x6c, 0x22, 0x90, 0x01, 0x0a, 0x10, 0x46, 0x61, 0x6e, 0x53, 0x70, 0x65,
  0x65, 0x64, 0x4d, 0x6f, 0x64, 0x69, 0x66, 0x69, 0x65, 0x64, 0x12, 0x1a, 0x0a, 0x08, 0x4d, 0x6f,
  0x64, 0x69, 0x66, 0x69, 0x65, 0x64, 0x18, 0x01, 0x20, 0x01, 0x28, 0x08, 0x52, 0x08, 0x4d, 0x6f,
  0x64, 0x69, 0x66, 0x69, 0x65, 0x64, 0x12, 0x24, 0x0a, 0x0d, 0x4f, 0x72, 0x69, 0x67, 0x69, 0x6e,
  0x61, 0x6c, 0x53, 0x70, 0x65, 0x65, 0x64, 0x18, 0x02, 0x20, 0x01, 0x28, 0x0d, 0x52, 0x0d, 0x4f,
  0x72, 0x69, 0x67, 0x69, 0x6e, 0x61, 0x6c, 0x53, 0x70, 0x65, 0x65, 0x64, 0x12, 0x20, 0x0a, 0x0b,
  0x54, 0x61, 0x72, 0x67, 0x65, 0x74, 0x53, 0x70, 0x65, 0x65, 0x64, 0x18, 0x03, 0x20, 0x01, 0x28,
  0x0d, 0x52, 0x0b, 0x54, 0x61, 0x72, 0x67, 0x65, 0x74, 0x53, 0x70, 0x65, 0x65, 0x64, 0x12, 0x18,
  0x0a, 0x07, 0x52, 0x65, 0x71, 0x54, 0x69, 0x6d, 0x65, 0x18, 0x04, 0x20, 0x01, 0x28, 0x09, 0x52,
  0x07, 0x52, 0x65, 0x71, 0x54, 0x69, 0x6d, 0x65, 0x22, 0xe5, 0x01, 0x0a, 0x05, 0x48, 0x6f, 0x75,
  0x72, 0x73, 0x12, 0x18, 0x0a, 0x07, 0x46, 0x61, 0x6e, 0x41, 0x77, 0x61, 0x79, 0x18, 0x01, 0x20,
  0x01, 0x28, 0x0d, 0x52, 0x07, 0x46, 0x61, 0x6e, 0x41, 0x77, 0x61, 0x79, 0x12, 0x16, 0x0a, 0x06,
  0x46, 0x61, 0x6e, 0x4c, 0x6f, 0x77, 0x18, 0x02, 0x20, 0x01, 0x28, 0x0d, 0x52, 0x06, 0x46, 0x61,
  0x6e, 0x4c, 0x6f, 0x77, 0x12, 0x16, 0x0a, 0x06, 0x46, 0x61, 0x6e, 0x4d, 0x69, 0x64, 0x18, 0x03,
  0x20, 0x01, 0x28, 0x0d, 0x52, 0x06, 0x46, 0x61, 0x6e, 0x4d, 0x69, 0x64, 0x12, 0x18, 0x0a, 0x07,
  0x46, 0x61, 0x6e, 0x48, 0x69, 0x67, 0x68, 0x18, 0x04, 0x20, 0x01, 0x28, 0x0d, 0x52, 0x07, 0x46,
  0x61, 0x6e, 0x48, 0x69, 0x67, 0x68, 0x12, 0x22, 0x0a, 0x0c, 0x46, 0x72, 0x6f, 0x73, 0x74, 0x50,
  0x72, 0x6f, 0x74, 0x65, 0x63, 0x74, 0x18, 0x05, 0x20, 0x01, 0x28, 0x0d, 0x52, 0x0c, 0x46, 0x72,
  0x6f, 0x73, 0x74, 0x50, 0x72, 0x6f, 0x74, 0x65, 0x63, 0x74, 0x12, 0x1c, 0x0a, 0x09, 0x52, 0x65,
  0x68, 0x65, 0x61, 0x74, 0x69, 0x6e, 0x67, 0x18, 0x06, 0x20, 0x01, 0x28, 0x0d, 0x52, 0x09, 0x52,
  0x65, 0x68, 0x65, 0x61, 0x74, 0x69, 0x6e, 0x67, 0x12, 0x1e, 0x0a, 0x0a, 0x42, 0x79, 0x70, 0x61,
  0x73, 0x73, 0x4f, 0x70, 0x65, 0x6e, 0x18, 0x07, 0x20, 0x01, 0x28, 0x0d, 0x52, 0x0a, 0x42, 0x79,
  0x70, 0x61, 0x73, 0x73, 0x4f, 0x70, 0x65, 0x6e, 0x12, 0x16, 0x0a, 0x06, 0x46, 0x69, 0x6c, 0x74,
  0x65, 0x72, 0x18, 0x08, 0x20, 0x01, 0x28, 0x0d, 0x52, 0x06, 0x46, 0x69, 0x6c, 0x74, 0x65, 0x72,
  0x22, 0xf7, 0x01, 0x0a, 0x05, 0x54, 0x65, 0x6d, 0x70, 0x73, 0x12, 0x18, 0x0a, 0x07, 0x43, 0x6f,
  0x6d, 0x66, 0x6f, 0x72, 0x74, 0x18, 0x01, 0x20, 0x01, 0x28, 0x02, 0x52, 0x07, 0x43, 0x6f, 0x6d,
  0x66, 0x6f, 0x72, 0x74, 0x12, 0x1e, 0x0a, 0x0a, 0x4f, 0x75, 0x74, 0x73, 0x69, 0x64, 0x65, 0x41,
  0x69, 0x72, 0x18, 0x02, 0x20, 0x01, 0x28, 0x02, 0x52, 0x0a, 0x4f, 0x75, 0x74, 0x73, 0x69, 0x64,
  0x65, 0x41, 0x69, 0x72, 0x12, 0x1c, 0x0a, 0x09, 0x53, 0x75, 0x70, 0x70, 0x6c, 0x79, 0x41, 0x69,
  0x72, 0x18, 0x03, 0x20, 0x01, 0x28, 0x02, 0x52, 0x09, 0x53, 0x75, 0x70, 0x70, 0x6c, 0x79, 0x41,
  0x69, 0x72, 0x12, 0x1c, 0x0a, 0x09, 0x49, 0x6e, 0x73, 0x69, 0x64, 0x65, 0x41, 0x69, 0x72, 0x18,
  0x04, 0x20, 0x01, 0x28, 0x02, 0x52, 0x09, 0x49, 0x6e, 0x73, 0x69, 0x64, 0x65, 0x41, 0x69, 0x72,
  0x12, 0x1e, 0x0a, 0x0a, 0x45, 0x78, 0x68, 0x61, 0x75, 0x73, 0x74, 0x41, 0x69, 0x72, 0x18, 0x05,
  0x20, 0x01, 0x28, 0x02, 0x52, 0x0a, 0x45, 0x78, 0x68, 0x61, 0x75, 0x73, 0x74, 0x41, 0x69, 0x72,
  0x12, 0x18, 0x0a, 0x07, 0x47, 0x65, 0x6f, 0x48, 0x65, 0x61, 0x74, 0x18, 0x06, 0x20, 0x01, 0x28,
  0x02, 0x52, 0x07, 0x47, 0x65, 0x6f, 0x48, 0x65, 0x61, 0x74, 0x12, 0x1c, 0x0a, 0x09, 0x52, 0x65,
  0x68, 0x65, 0x61, 0x74, 0x69, 0x6e, 0x67, 0x18, 0x07, 0x20, 0x01, 0x28, 0x02, 0x52, 0x09, 0x52,
  0x65, 0x68, 0x65, 0x61, 0x74, 0x69, 0x6e, 0x67, 0x12, 0x20, 0x0a, 0x0b, 0x4b, 0x69, 0x74, 0x63,
  0x68, 0x65, 0x6e, 0x48, 0x6f, 0x6f, 0x64, 0x18, 0x08, 0x20, 0x01, 0x28, 0x02, 0x52, 0x0b, 0x4b,
  0x69, 0x74, 0x63, 0x68, 0x65, 0x6e, 0x48, 0x6f, 0x6f, 0x64, 0x22, 0xa4, 0x01, 0x0a, 0x11, 0x46,
  0x6c, 0x75, 0x73, 0x68, 0x43, 0x61, 0x63, 0x68, 0x65, 0x52, 0x65, 0x71, 0x75, 0x65, 0x73, 0x74,
  0x12, 0x3c, 0x0a, 0x05, 0x43, 0x61, 0x63, 0x68, 0x65, 0x18, 0x01, 0x20, 0x01, 0x28, 0x0e, 0x32,
  0x26, 0x2e, 0x63, 0x6f, 0x6d, 0x66, 0x6f, 0x2e, 0x61, 0x70, 0x69, 0x2e, 0x46, 0x6c, 0x75, 0x73,
  0x68, 0x43, 0x61, 0x63, 0x68, 0x65, 0x52, 0x65, 0x71, 0x75, 0x65, 0x73, 0x74, 0x2e, 0x43, 0x61,
  0x63, 0x68, 0x65, 0x54, 0x79, 0x70, 0x65, 0x52, 0x05, 0x43, 0x61, 0x63, 0x68, 0x65, 0x22, 0x51,
  0x0a, 0x09, 0x43, 0x61, 0x63, 0x68, 0x65, 0x54, 0x79, 0x70, 0x65, 0x12, 0x0c, 0x0a, 0x08, 0x42,
  0x6f, 0x6f, 0x74, 0x49, 0x6e, 0x66, 0x6f, 0x10, 0x00, 0x12, 0x08, 0x0a, 0x04, 0x46, 0x61, 0x6e,
  0x73, 0x10, 0x01, 0x12, 0x09, 0x0a, 0x05, 0x54, 0x65, 0x6d, 0x70, 0x73, 0x10, 0x02, 0x12, 0x0c,
  0x0a, 0x08, 0x50, 0x72, 0x6f, 0x66, 0x69, 0x6c, 0x65, 0x73, 0x10, 0x03, 0x12, 0x0a, 0x0a, 0x06,
  0x42, 0x79, 0x70, 0x61, 0x73, 0x73, 0x10, 0x04, 0x12, 0x07, 0x0a, 0x03, 0x41, 0x6c, 0x6c, 0x10,
  0x0a, 0x22, 0x48, 0x0a, 0x12, 0x46, 0x6c, 0x75, 0x73, 0x68, 0x43, 0x61, 0x63, 0x68, 0x65, 0x52,
  0x65, 0x73, 0x70, 0x6f, 0x6e, 0x73, 0x65, 0x12, 0x18, 0x0a, 0x07, 0x53, 0x75, 0x63, 0x63, 0x65,
  0x73, 0x73, 0x18, 0x01, 0x20, 0x01, 0x28, 0x08, 0x52, 0x07, 0x53, 0x75, 0x63, 0x63, 0x65, 0x73,
  0x73, 0x12, 0x18, 0x0a, 0x07, 0x52, 0x65, 0x71, 0x54, 0x69, 0x6d, 0x65, 0x18, 0x02, 0x20, 0x01,
  0x28, 0x09, 0x52, 0x07, 0x52, 0x65, 0x71, 0x54, 0x69, 0x6d, 0x65, 0x32, 0xdc, 0x04, 0x0a, 0x05,
  0x43, 0x6f, 0x6d, 0x66, 0x6f, 0x12, 0x33, 0x0a, 0x0b, 0x47, 0x65, 0x74, 0x42, 0x6f, 0x6f, 0x74,
  0x49, 0x6e, 0x66, 0x6f, 0x12, 0x0f, 0x2e, 0x63, 0x6f, 0x6d, 0x66, 0x6f, 0x2e, 0x61, 0x70, 0x69,
  0x2e, 0x4e, 0x6f, 0x6f, 0x70, 0x1a, 0x13, 0x2e, 0x63, 0x6f, 0x6d, 0x66, 0x6f, 0x2e, 0x61, 0x70,
  0x69, 0x2e, 0x42, 0x6f, 0x6f, 0x74, 0x49, 0x6e, 0x66, 0x6f, 0x12, 0x2d, 0x0a, 0x08, 0x47, 0x65,
  0x74, 0x54, 0x65, 0x6d, 0x70, 0x73, 0x12, 0x0f, 0x2e, 0x63, 0x6f, 0x6d, 0x66, 0x6f, 0x2e, 0x61,
  0x70, 0x69, 0x2e, 0x4e, 0x6f, 0x6f, 0x70, 0x1a, 0x10, 0x2e, 0x63, 0x6f, 0x6d, 0x66, 0x6f, 0x2e,
  0x61, 0x70, 0x69, 0x2e, 0x54, 0x65, 0x6d, 0x70, 0x73, 0x12, 0x2f, 0x0a, 0x09, 0x47, 0x65, 0x74,
  0x42, 0x79, 0x70, 0x61, 0x73, 0x73, 0x12, 0x0f, 0x2e, 0x63, 0x6f, 0x6d, 0x66, 0x6f, 0x2e, 0x61,
  0x70, 0x69, 0x2e, 0x4e, 0x6f, 0x6f, 0x70, 0x1a, 0x11, 0x2e, 0x63, 0x6f, 0x6d, 0x66, 0x6f, 0x2e,
  0x61, 0x70, 0x69, 0x2e, 0x42, 0x79, 0x70, 0x61, 0x73, 0x73, 0x12, 0x2b, 0x0a, 0x07, 0x47, 0x65,
  0x74, 0x46, 0x61, 0x6e, 0x73, 0x12, 0x0f, 0x2e, 0x63, 0x6f, 0x6d, 0x66, 0x6f, 0x2e, 0x61, 0x70,
  0x69, 0x2e, 0x4e, 0x6f, 0x6f, 0x70, 0x1a, 0x0f, 0x2e, 0x63, 0x6f, 0x6d, 0x66, 0x6f, 0x2e, 0x61,
  0x70, 0x69, 0x2e, 0x46, 0x61, 0x6e, 0x73, 0x12, 0x39, 0x0a, 0x0e, 0x47, 0x65, 0x74, 0x46, 0x61,
  0x6e, 0x50, 0x72, 0x6f, 0x66, 0x69, 0x6c, 0x65, 0x73, 0x12, 0x0f, 0x2e, 0x63, 0x6f, 0x6d, 0x66,
  0x6f, 0x2e, 0x61, 0x70, 0x69, 0x2e, 0x4e, 0x6f, 0x6f, 0x70, 0x1a, 0x16, 0x2e, 0x63, 0x6f, 0x6d,
  0x66, 0x6f, 0x2e, 0x61, 0x70, 0x69, 0x2e, 0x46, 0x61, 0x6e, 0x50, 0x72, 0x6f, 0x66, 0x69, 0x6c,
  0x65, 0x73, 0x12, 0x2f, 0x0a, 0x09, 0x47, 0x65, 0x74, 0x45, 0x72, 0x72, 0x6f, 0x72, 0x73, 0x12,
  0x0f, 0x2e, 0x63, 0x6f, 0x6d, 0x66, 0x6f, 0x2e, 0x61, 0x70, 0x69, 0x2e, 0x4e, 0x6f, 0x6f, 0x70,
  0x1a, 0x11, 0x2e, 0x63, 0x6f, 0x6d, 0x66, 0x6f, 0x2e, 0x61, 0x70, 0x69, 0x2e, 0x45, 0x72, 0x72,
  0x6f, 0x72, 0x73, 0x12, 0x45, 0x0a, 0x0b, 0x53, 0x65, 0x74, 0x46, 0x61, 0x6e, 0x53, 0x70, 0x65,
  0x65, 0x64, 0x12, 0x19, 0x2e, 0x63, 0x6f, 0x6d, 0x66, 0x6f, 0x2e, 0x61, 0x70, 0x69, 0x2e, 0x46,
  0x61, 0x6e, 0x53, 0x70, 0x65, 0x65, 0x64, 0x54, 0x61, 0x72, 0x67, 0x65, 0x74, 0x1a, 0x1b, 0x2e,
  0x63, 0x6f, 0x6d, 0x66, 0x6f, 0x2e, 0x61, 0x70, 0x69, 0x2e, 0x46, 0x61, 0x6e, 0x53, 0x70, 0x65,
  0x65, 0x64, 0x4d, 0x6f, 0x64, 0x69, 0x66, 0x69, 0x65, 0x64, 0x12, 0x46, 0x0a, 0x0e, 0x53, 0x65,
  0x74, 0x43, 0x6f, 0x6d, 0x66, 0x6f, 0x72, 0x74, 0x54, 0x65, 0x6d, 0x70, 0x12, 0x18, 0x2e, 0x63,
  0x6f, 0x6d, 0x66, 0x6f, 0x2e, 0x61, 0x70, 0x69, 0x2e, 0x43, 0x6f, 0x6d, 0x66, 0x6f, 0x72, 0x74,
  0x54, 0x61, 0x72, 0x67, 0x65, 0x74, 0x1a, 0x1a, 0x2e, 0x63, 0x6f, 0x6d, 0x66, 0x6f, 0x2e, 0x61,
  0x70, 0x69, 0x2e, 0x43, 0x6f, 0x6d, 0x66, 0x6f, 0x72, 0x74, 0x4d, 0x6f, 0x64, 0x69, 0x66, 0x69,
  0x65, 0x64, 0x12, 0x4b, 0x0a, 0x0d, 0x53, 0x65, 0x74, 0x46, 0x61, 0x6e, 0x50, 0x72, 0x6f, 0x66,
  0x69, 0x6c, 0x65, 0x12, 0x1b, 0x2e, 0x63, 0x6f, 0x6d, 0x66, 0x6f, 0x2e, 0x61, 0x70, 0x69, 0x2e,
  0x46, 0x61, 0x6e, 0x50, 0x72, 0x6f, 0x66, 0x69, 0x6c, 0x65, 0x54, 0x61, 0x72, 0x67, 0x65, 0x74,
  0x1a, 0x1d, 0x2e, 0x63, 0x6f, 0x6d, 0x66, 0x6f, 0x2e, 0x61, 0x70, 0x69, 0x2e, 0x46, 0x61, 0x6e,
  0x50, 0x72, 0x6f, 0x66, 0x69, 0x6c, 0x65, 0x4d, 0x6f, 0x64, 0x69, 0x66, 0x69, 0x65, 0x64, 0x12,
  0x49, 0x0a, 0x0a, 0x46, 0x6c, 0x75, 0x73, 0x68, 0x43, 0x61, 0x63, 0x68, 0x65, 0x12, 0x1c, 0x2e,
  0x63, 0x6f, 0x6d, 0x66, 0x6f, 0x2e, 0x61, 0x70, 0x69, 0x2e, 0x46, 0x6c, 0x75, 0x73, 0x68, 0x43,
  0x61, 0x63, 0x68, 0x65, 0x52, 0x65, 0x71, 0x75, 0x65, 0x73, 0x74, 0x1a, 0x1d, 0x2e, 0x63, 0x6f,
  0x6d, 0x66, 0x6f, 0x2e, 0x61, 0x70, 0x69, 0x2e, 0x46, 0x6c, 0x75, 0x73, 0x68, 0x43, 0x61, 0x63,
  0x68, 0x65, 0x52, 0x65, 0x73, 0x70, 0x6f, 0x6e, 0x73, 0x65, 0x42, 0x28, 0x5a, 0x26, 0x67, 0x69,
  0x74, 0x68, 0x75, 0x62, 0x2e, 0x63, 0x6f, 0x6d, 0x2f, 0x74, 0x69, 0x2d, 0x6d, 0x6f, 0x2f, 0x63,
  0x6f, 0x6d, 0x66, 0x6f, 0x2f, 0x72, 0x70, 0x63, 0x2f, 0x63, 0x6f, 0x6d, 0x66, 0x6f, 0x3b, 0x63,
  0x6f, 0x6d, 0x66, 0x6f, 0x62, 0x06, 0x70, 0x72, 0x6f, 0x74, 0x6f, 0x33]

/-- `python/comfo/comfo_pb2.py:16`, the argument of `AddSerializedFile`. -/
def pyDesc : List UInt8 := [
  0x0a, 0x0b, 0x63, 0x6f, 0x6d, 0x66, 0x6f, 0x2e, 0x70, 0x72, 0x6f, 0x74, 0x6f, 0x12, 0x09, 0x63,
  0x6f, 0x6d, 0x66, 0x6f, 0x2e, 0x61, 0x70, 0x69, 0x22, 0x06, 0x0a, 0x04, 0x4e, 0x6f, 0x6f, 0x70,
  0x22, 0x4f, 0x0a, 0x06, 0x42, 0x79, 0x70, 0x61, 0x73, 0x73, 0x12, 0x0e, 0x0a, 0x06, 0x46, 0x61,
  0x63, 0x74, 0x6f, 0x72, 0x18, 0x01, 0x20, 0x01, 0x28, 0x0d, 0x12, 0x0d, 0x0a, 0x05, 0x4c, 0x65,
  0x76, 0x65, 0x6c, 0x18, 0x02, 0x20, 0x01, 0x28, 0x0d, 0x12, 0x12, 0x0a, 0x0a, 0x43, 0x6f, 0x72,
  0x72, 0x65, 0x63, 0x74, 0x69, 0x6f, 0x6e, 0x18, 0x03, 0x20, 0x01, 0x28, 0x0d, 0x12, 0x12, 0x0a,
  0x0a, 0x53, 0x75, 0x6d, 0x6d, 0x65, 0x72, 0x4d, 0x6f, 0x64, 0x65, 0x18, 0x04, 0x20, 0x01, 0x28,
  0x08, 0x22, 0x5f, 0x0a, 0x08, 0x42, 0x6f, 0x6f, 0x74, 0x49, 0x6e, 0x66, 0x6f, 0x12, 0x14, 0x0a,
  0x0c, 0x4d, 0x61, 0x6a, 0x6f, 0x72, 0x56, 0x65, 0x72, 0x73, 0x69, 0x6f, 0x6e, 0x18, 0x01, 0x20,
  0x01, 0x28, 0x0d, 0x12, 0x14, 0x0a, 0x0c, 0x4d, 0x69, 0x6e, 0x6f, 0x72, 0x56, 0x65, 0x72, 0x73,
  0x69, 0x6f, 0x6e, 0x18, 0x02, 0x20, 0x01, 0x28, 0x0d, 0x12, 0x13, 0x0a, 0x0b, 0x42, 0x65, 0x74,
  0x61, 0x56, 0x65, 0x72, 0x73, 0x69, 0x6f, 0x6e, 0x18, 0x03, 0x20, 0x01, 0x28, 0x0d, 0x12, 0x12,
  0x0a, 0x0a, 0x44, 0x65, 0x76, 0x69, 0x63, 0x65, 0x4e, 0x61, 0x6d, 0x65, 0x18, 0x04, 0x20, 0x01,
  0x28, 0x09, 0x22, 0x24, 0x0a, 0x0d, 0x43, 0x6f, 0x6d, 0x66, 0x6f, 0x72, 0x74, 0x54, 0x61, 0x72,
  0x67, 0x65, 0x74, 0x12, 0x13, 0x0a, 0x0b, 0x43, 0x6f, 0x6d, 0x66, 0x6f, 0x72, 0x74, 0x54, 0x65,
  0x6d, 0x70, 0x18, 0x01, 0x20, 0x01, 0x28, 0x0d, 0x22, 0x5e, 0x0a, 0x0f, 0x43, 0x6f, 0x6d, 0x66,
  0x6f, 0x72, 0x74, 0x4d, 0x6f, 0x64, 0x69, 0x66, 0x69, 0x65, 0x64, 0x12, 0x10, 0x0a, 0x08, 0x4d,
  0x6f, 0x64, 0x69, 0x66, 0x69, 0x65, 0x64, 0x18, 0x01, 0x20, 0x01, 0x28, 0x08, 0x12, 0x14, 0x0a,
  0x0c, 0x4f, 0x72, 0x69, 0x67, 0x69, 0x6e, 0x61, 0x6c, 0x54, 0x65, 0x6d, 0x70, 0x18, 0x02, 0x20,
  0x01, 0x28, 0x0d, 0x12, 0x12, 0x0a, 0x0a, 0x54, 0x61, 0x72, 0x67, 0x65, 0x74, 0x54, 0x65, 0x6d,
  0x70, 0x18, 0x03, 0x20, 0x01, 0x28, 0x0d, 0x12, 0x0f, 0x0a, 0x07, 0x52, 0x65, 0x71, 0x54, 0x69,
  0x6d, 0x65, 0x18, 0x04, 0x20, 0x01, 0x28, 0x09, 0x22, 0x18, 0x0a, 0x06, 0x45, 0x72, 0x72, 0x6f,
  0x72, 0x73, 0x12, 0x0e, 0x0a, 0x06, 0x46, 0x69, 0x6c, 0x74, 0x65, 0x72, 0x18, 0x01, 0x20, 0x01,
  0x28, 0x08, 0x22, 0x50, 0x0a, 0x04, 0x46, 0x61, 0x6e, 0x73, 0x12, 0x11, 0x0a, 0x09, 0x49, 0x6e,
  0x50, 0x65, 0x72, 0x63, 0x65, 0x6e, 0x74, 0x18, 0x01, 0x20, 0x01, 0x28, 0x0d, 0x12, 0x12, 0x0a,
  0x0a, 0x4f, 0x75, 0x74, 0x50, 0x65, 0x72, 0x63, 0x65, 0x6e, 0x74, 0x18, 0x02, 0x20, 0x01, 0x28,
  0x0d, 0x12, 0x0f, 0x0a, 0x07, 0x49, 0x6e, 0x53, 0x70, 0x65, 0x65, 0x64, 0x18, 0x03, 0x20, 0x01,
  0x28, 0x0d, 0x12, 0x10, 0x0a, 0x08, 0x4f, 0x75, 0x74, 0x53, 0x70, 0x65, 0x65, 0x64, 0x18, 0x04,
  0x20, 0x01, 0x28, 0x0d, 0x22, 0xde, 0x01, 0x0a, 0x0b, 0x46, 0x61, 0x6e, 0x50, 0x72, 0x6f, 0x66,
  0x69, 0x6c, 0x65, 0x73, 0x12, 0x0f, 0x0a, 0x07, 0x4f, 0x75, 0x74, 0x41, 0x77, 0x61, 0x79, 0x18,
  0x01, 0x20, 0x01, 0x28, 0x0d, 0x12, 0x0e, 0x0a, 0x06, 0x4f, 0x75, 0x74, 0x4c, 0x6f, 0x77, 0x18,
  0x02, 0x20, 0x01, 0x28, 0x0d, 0x12, 0x0e, 0x0a, 0x06, 0x4f, 0x75, 0x74, 0x4d, 0x69, 0x64, 0x18,
  0x03, 0x20, 0x01, 0x28, 0x0d, 0x12, 0x0f, 0x0a, 0x07, 0x4f, 0x75, 0x74, 0x48, 0x69, 0x67, 0x68,
  0x18, 0x04, 0x20, 0x01, 0x28, 0x0d, 0x12, 0x13, 0x0a, 0x0b, 0x49, 0x6e, 0x46, 0x61, 0x6e, 0x41,
  0x63, 0x74, 0x69, 0x76, 0x65, 0x18, 0x05, 0x20, 0x01, 0x28, 0x08, 0x12, 0x0e, 0x0a, 0x06, 0x49,
  0x6e, 0x41, 0x77, 0x61, 0x79, 0x18, 0x06, 0x20, 0x01, 0x28, 0x0d, 0x12, 0x0d, 0x0a, 0x05, 0x49,
  0x6e, 0x4c, 0x6f, 0x77, 0x18, 0x07, 0x20, 0x01, 0x28, 0x0d, 0x12, 0x0d, 0x0a, 0x05, 0x49, 0x6e,
  0x4d, 0x69, 0x64, 0x18, 0x08, 0x20, 0x01, 0x28, 0x0d, 0x12, 0x0e, 0x0a, 0x06, 0x49, 0x6e, 0x48,
  0x69, 0x67, 0x68, 0x18, 0x09, 0x20, 0x01, 0x28, 0x0d, 0x12, 0x12, 0x0a, 0x0a, 0x43, 0x75, 0x72,
  0x72, 0x65, 0x6e, 0x74, 0x4f, 0x75, 0x74, 0x18, 0x0a, 0x20, 0x01, 0x28, 0x0d, 0x12, 0x11, 0x0a,
  0x09, 0x43, 0x75, 0x72, 0x72, 0x65, 0x6e, 0x74, 0x49, 0x6e, 0x18, 0x0b, 0x20, 0x01, 0x28, 0x0d,
  0x12, 0x13, 0x0a, 0x0b, 0x43, 0x75, 0x72, 0x72, 0x65, 0x6e, 0x74, 0x4d, 0x6f, 0x64, 0x65, 0x18,
  0x0c, 0x20, 0x01, 0x28, 0x0d, 0x22, 0x35, 0x0a, 0x10, 0x46, 0x61, 0x6e, 0x50, 0x72, 0x6f, 0x66,
  0x69, 0x6c, 0x65, 0x54, 0x61, 0x72, 0x67, 0x65, 0x74, 0x12, 0x0c, 0x0a, 0x04, 0x4d, 0x6f, 0x64,
  0x65, 0x18, 0x01, 0x20, 0x01, 0x28, 0x0d, 0x12, 0x13, 0x0a, 0x0b, 0x54, 0x61, 0x72, 0x67, 0x65,
  0x74, 0x53, 0x70, 0x65, 0x65, 0x64, 0x18, 0x02, 0x20, 0x01, 0x28, 0x0d, 0x22, 0x63, 0x0a, 0x12,
  0x46, 0x61, 0x6e, 0x50, 0x72, 0x6f, 0x66, 0x69, 0x6c, 0x65, 0x4d, 0x6f, 0x64, 0x69, 0x66, 0x69,
  0x65, 0x64, 0x12, 0x10, 0x0a, 0x08, 0x4d, 0x6f, 0x64, 0x69, 0x66, 0x69, 0x65, 0x64, 0x18, 0x01,
  0x20, 0x01, 0x28, 0x08, 0x12, 0x15, 0x0a, 0x0d, 0x4f, 0x72, 0x69, 0x67, 0x69, 0x6e, 0x61, 0x6c,
  0x53, 0x70, 0x65, 0x65, 0x64, 0x18, 0x02, 0x20, 0x01, 0x28, 0x0d, 0x12, 0x13, 0x0a, 0x0b, 0x54,
  0x61, 0x72, 0x67, 0x65, 0x74, 0x53, 0x70, 0x65, 0x65, 0x64, 0x18, 0x03, 0x20, 0x01, 0x28, 0x0d,
  0x12, 0x0f, 0x0a, 0x07, 0x52, 0x65, 0x71, 0x54, 0x69, 0x6d, 0x65, 0x18, 0x04, 0x20, 0x01, 0x28,
  0x09, 0x22, 0x2a, 0x0a, 0x0e, 0x46, 0x61, 0x6e, 0x53, 0x70, 0x65, 0x65, 0x64, 0x54, 0x61, 0x72,
  0x67, 0x65, 0x74, 0x12, 0x0b, 0x0a, 0x03, 0x41, 0x62, 0x73, 0x18, 0x01, 0x20, 0x01, 0x28, 0x0d,
  0x12, 0x0b, 0x0a, 0x03, 0x52, 0x65, 0x6c, 0x18, 0x02, 0x20, 0x01, 0x28, 0x08, 0x22, 0x61, 0x0a,
  0x10, 0x46, 0x61, 0x6e, 0x53, 0x70, 0x65, 0x65, 0x64, 0x4d, 0x6f, 0x64, 0x69, 0x66, 0x69, 0x65,
  0x64, 0x12, 0x10, 0x0a, 0x08, 0x4d, 0x6f, 0x64, 0x69, 0x66, 0x69, 0x65, 0x64, 0x18, 0x01, 0x20,
  0x01, 0x28, 0x08, 0x12, 0x15, 0x0a, 0x0d, 0x4f, 0x72, 0x69, 0x67, 0x69, 0x6e, 0x61, 0x6c, 0x53,
  0x70, 0x65, 0x65, 0x64, 0x18, 0x02, 0x20, 0x01, 0x28, 0x0d, 0x12, 0x13, 0x0a, 0x0b, 0x54, 0x61,
  0x72, 0x67, 0x65, 0x74, 0x53, 0x70, 0x65, 0x65, 0x64, 0x18, 0x03, 0x20, 0x01, 0x28, 0x0d, 0x12,
  0x0f, 0x0a, 0x07, 0x52, 0x65, 0x71, 0x54, 0x69, 0x6d, 0x65, 0x18, 0x04, 0x20, 0x01, 0x28, 0x09,
  0x22, 0x96, 0x01, 0x0a, 0x05, 0x48, 0x6f, 0x75, 0x72, 0x73, 0x12, 0x0f, 0x0a, 0x07, 0x46, 0x61,
  0x6e, 0x41, 0x77, 0x61, 0x79, 0x18, 0x01, 0x20, 0x01, 0x28, 0x0d, 0x12, 0x0e, 0x0a, 0x06, 0x46,
  0x61, 0x6e, 0x4c, 0x6f, 0x77, 0x18, 0x02, 0x20, 0x01, 0x28, 0x0d, 0x12, 0x0e, 0x0a, 0x06, 0x46,
  0x61, 0x6e, 0x4d, 0x69, 0x64, 0x18, 0x03, 0x20, 0x01, 0x28, 0x0d, 0x12, 0x0f, 0x0a, 0x07, 0x46,
  0x61, 0x6e, 0x48, 0x69, 0x67, 0x68, 0x18, 0x04, 0x20, 0x01, 0x28, 0x0d, 0x12, 0x14, 0x0a, 0x0c,
  0x46, 0x72, 0x6f, 0x73, 0x74, 0x50, 0x72, 0x6f, 0x74, 0x65, 0x63, 0x74, 0x18, 0x05, 0x20, 0x01,
  0x28, 0x0d, 0x12, 0x11, 0x0a, 0x09, 0x52, 0x65, 0x68, 0x65, 0x61, 0x74, 0x69, 0x6e, 0x67, 0x18,
  0x06, 0x20, 0x01, 0x28, 0x0d, 0x12, 0x12, 0x0a, 0x0a, 0x42, 0x79, 0x70, 0x61, 0x73, 0x73, 0x4f,
  0x70, 0x65, 0x6e, 0x18, 0x07, 0x20, 0x01, 0x28, 0x0d, 0x12, 0x0e, 0x0a, 0x06, 0x46, 0x69, 0x6c,
  0x74, 0x65, 0x72, 0x18, 0x08, 0x20, 0x01, 0x28, 0x0d, 0x22, 0x9f, 0x01, 0x0a, 0x05, 0x54, 0x65,
  0x6d, 0x70, 0x73, 0x12, 0x0f, 0x0a, 0x07, 0x43, 0x6f, 0x6d, 0x66, 0x6f, 0x72, 0x74, 0x18, 0x01,
  0x20, 0x01, 0x28, 0x02, 0x12, 0x12, 0x0a, 0x0a, 0x4f, 0x75, 0x74, 0x73, 0x69, 0x64, 0x65, 0x41,
  0x69, 0x72, 0x18, 0x02, 0x20, 0x01, 0x28, 0x02, 0x12, 0x11, 0x0a, 0x09, 0x53, 0x75, 0x70, 0x70,
  0x6c, 0x79, 0x41, 0x69, 0x72, 0x18, 0x03, 0x20, 0x01, 0x28, 0x02, 0x12, 0x11, 0x0a, 0x09, 0x49,
  0x6e, 0x73, 0x69, 0x64, 0x65, 0x41, 0x69, 0x72, 0x18, 0x04, 0x20, 0x01, 0x28, 0x02, 0x12, 0x12,
  0x0a, 0x0a, 0x45, 0x78, 0x68, 0x61, 0x75, 0x73, 0x74, 0x41, 0x69, 0x72, 0x18, 0x05, 0x20, 0x01,
  0x28, 0x02, 0x12, 0x0f, 0x0a, 0x07, 0x47, 0x65, 0x6f, 0x48, 0x65, 0x61, 0x74, 0x18, 0x06, 0x20,
  0x01, 0x28, 0x02, 0x12, 0x11, 0x0a, 0x09, 0x52, 0x65, 0x68, 0x65, 0x61, 0x74, 0x69, 0x6e, 0x67,
  0x18, 0x07, 0x20, 0x01, 0x28, 0x02, 0x12, 0x13, 0x0a, 0x0b, 0x4b, 0x69, 0x74, 0x63, 0x68, 0x65,
  0x6e, 0x48, 0x6f, 0x6f, 0x64, 0x18, 0x08, 0x20, 0x01, 0x28, 0x02, 0x22, 0x9d, 0x01, 0x0a, 0x11,
  0x46, 0x6c, 0x75, 0x73, 0x68, 0x43, 0x61, 0x63, 0x68, 0x65, 0x52, 0x65, 0x71, 0x75, 0x65, 0x73,
  0x74, 0x12, 0x35, 0x0a, 0x05, 0x43, 0x61, 0x63, 0x68, 0x65, 0x18, 0x01, 0x20, 0x01, 0x28, 0x0e,
  0x32, 0x26, 0x2e, 0x63, 0x6f, 0x6d, 0x66, 0x6f, 0x2e, 0x61, 0x70, 0x69, 0x2e, 0x46, 0x6c, 0x75,
  0x73, 0x68, 0x43, 0x61, 0x63, 0x68, 0x65, 0x52, 0x65, 0x71, 0x75, 0x65, 0x73, 0x74, 0x2e, 0x43,
  0x61, 0x63, 0x68, 0x65, 0x54, 0x79, 0x70, 0x65, 0x22, 0x51, 0x0a, 0x09, 0x43, 0x61, 0x63, 0x68,
  0x65, 0x54, 0x79, 0x70, 0x65, 0x12, 0x0c, 0x0a, 0x08, 0x42, 0x6f, 0x6f, 0x74, 0x49, 0x6e, 0x66,
  0x6f, 0x10, 0x00, 0x12, 0x08, 0x0a, 0x04, 0x46, 0x61, 0x6e, 0x73, 0x10, 0x01, 0x12, 0x09, 0x0a,
  0x05, 0x54, 0x65, 0x6d, 0x70, 0x73, 0x10, 0x02, 0x12, 0x0c, 0x0a, 0x08, 0x50, 0x72, 0x6f, 0x66,
  0x69, 0x6c, 0x65, 0x73, 0x10, 0x03, 0x12, 0x0a, 0x0a, 0x06, 0x42, 0x79, 0x70, 0x61, 0x73, 0x73,
  0x10, 0x04, 0x12, 0x07, 0x0a, 0x03, 0x41, 0x6c, 0x6c, 0x10, 0x0a, 0x22, 0x36, 0x0a, 0x12, 0x46,
  0x6c, 0x75, 0x73, 0x68, 0x43, 0x61, 0x63, 0x68, 0x65, 0x52, 0x65, 0x73, 0x70, 0x6f, 0x6e, 0x73,
  0x65, 0x12, 0x0f, 0x0a, 0x07, 0x53, 0x75, 0x63, 0x63, 0x65, 0x73, 0x73, 0x18, 0x01, 0x20, 0x01,
  0x28, 0x08, 0x12, 0x0f, 0x0a, 0x07, 0x52, 0x65, 0x71, 0x54, 0x69, 0x6d, 0x65, 0x18, 0x02, 0x20,
  0x01, 0x28, 0x09, 0x32, 0xdc, 0x04, 0x0a, 0x05, 0x43, 0x6f, 0x6d, 0x66, 0x6f, 0x12, 0x33, 0x0a,
  0x0b, 0x47, 0x65, 0x74, 0x42, 0x6f, 0x6f, 0x74, 0x49, 0x6e, 0x66, 0x6f, 0x12, 0x0f, 0x2e, 0x63,
  0x6f, 0x6d, 0x66, 0x6f, 0x2e, 0x61, 0x70, 0x69, 0x2e, 0x4e, 0x6f, 0x6f, 0x70, 0x1a, 0x13, 0x2e,
  0x63, 0x6f, 0x6d, 0x66, 0x6f, 0x2e, 0x61, 0x70, 0x69, 0x2e, 0x42, 0x6f, 0x6f, 0x74, 0x49, 0x6e,
  0x66, 0x6f, 0x12, 0x2d, 0x0a, 0x08, 0x47, 0x65, 0x74, 0x54, 0x65, 0x6d, 0x70, 0x73, 0x12, 0x0f,
  0x2e, 0x63, 0x6f, 0x6d, 0x66, 0x6f, 0x2e, 0x61, 0x70, 0x69, 0x2e, 0x4e, 0x6f, 0x6f, 0x70, 0x1a,
  0x10, 0x2e, 0x63, 0x6f, 0x6d, 0x66, 0x6f, 0x2e, 0x61, 0x70, 0x69, 0x2e, 0x54, 0x65, 0x6d, 0x70,
  0x73, 0x12, 0x2f, 0x0a, 0x09, 0x47, 0x65, 0x74, 0x42, 0x79, 0x70, 0x61, 0x73, 0x73, 0x12, 0x0f,
  0x2e, 0x63, 0x6f, 0x6d, 0x66, 0x6f, 0x2e, 0x61, 0x70, 0x69, 0x2e, 0x4e, 0x6f, 0x6f, 0x70, 0x1a,
  0x11, 0x2e, 0x63, 0x6f, 0x6d, 0x66, 0x6f, 0x2e, 0x61, 0x70, 0x69, 0x2e, 0x42, 0x79, 0x70, 0x61,
  0x73, 0x73, 0x12, 0x2b, 0x0a, 0x07, 0x47, 0x65, 0x74, 0x46, 0x61, 0x6e, 0x73, 0x12, 0x0f, 0x2e,
  0x63, 0x6f, 0x6d, 0x66, 0x6f, 0x2e, 0x61, 0x70, 0x69, 0x2e, 0x4e, 0x6f, 0x6f, 0x70, 0x1a, 0x0f,
  0x2e, 0x63, 0x6f, 0x6d, 0x66, 0x6f, 0x2e, 0x61, 0x70, 0x69, 0x2e, 0x46, 0x61, 0x6e, 0x73, 0x12,
  0x39, 0x0a, 0x0e, 0x47, 0x65, 0x74, 0x46, 0x61, 0x6e, 0x50, 0x72, 0x6f, 0x66, 0x69, 0x6c, 0x65,
  0x73, 0x12, 0x0f, 0x2e, 0x63, 0x6f, 0x6d, 0x66, 0x6f, 0x2e, 0x61, 0x70, 0x69, 0x2e, 0x4e, 0x6f,
  0x6f, 0x70, 0x1a, 0x16, 0x2e, 0x63, 0x6f, 0x6d, 0x66, 0x6f, 0x2e, 0x61, 0x70, 0x69, 0x2e, 0x46,
  0x61, 0x6e, 0x50, 0x72, 0x6f, 0x66, 0x69, 0x6c, 0x65, 0x73, 0x12, 0x2f, 0x0a, 0x09, 0x47, 0x65,
  0x74, 0x45, 0x72, 0x72, 0x6f, 0x72, 0x73, 0x12, 0x0f, 0x2e, 0x63, 0x6f, 0x6d, 0x66, 0x6f, 0x2e,
  0x61, 0x70, 0x69, 0x2e, 0x4e, 0x6f, 0x6f, 0x70, 0x1a, 0x11, 0x2e, 0x63, 0x6f, 0x6d, 0x66, 0x6f,
  0x2e, 0x61, 0x70, 0x69, 0x2e, 0x45, 0x72, 0x72, 0x6f, 0x72, 0x73, 0x12, 0x45, 0x0a, 0x0b, 0x53,
  0x65, 0x74, 0x46, 0x61, 0x6e, 0x53, 0x70, 0x65, 0x65, 0x64, 0x12, 0x19, 0x2e, 0x63, 0x6f, 0x6d,
  0x66, 0x6f, 0x2e, 0x61, 0x70, 0x69, 0x2e, 0x46, 0x61, 0x6e, 0x53, 0x70, 0x65, 0x65, 0x64, 0x54,
  0x61, 0x72, 0x67, 0x65, 0x74, 0x1a, 0x1b, 0x2e, 0x63, 0x6f, 0x6d, 0x66, 0x6f, 0x2e, 0x61, 0x70,
  0x69, 0x2e, 0x46, 0x61, 0x6e, 0x53, 0x70, 0x65, 0x65, 0x64, 0x4d, 0x6f, 0x64, 0x69, 0x66, 0x69,
  0x65, 0x64, 0x12, 0x46, 0x0a, 0x0e, 0x53, 0x65, 0x74, 0x43, 0x6f, 0x6d, 0x66, 0x6f, 0x72, 0x74,
  0x54, 0x65, 0x6d, 0x70, 0x12, 0x18, 0x2e, 0x63, 0x6f, 0x6d, 0x66, 0x6f, 0x2e, 0x61, 0x70, 0x69,
  0x2e, 0x43, 0x6f, 0x6d, 0x66, 0x6f, 0x72, 0x74, 0x54, 0x61, 0x72, 0x67, 0x65, 0x74, 0x1a, 0x1a,
  0x2e, 0x63, 0x6f, 0x6d, 0x66, 0x6f, 0x2e, 0x61, 0x70, 0x69, 0x2e, 0x43, 0x6f, 0x6d, 0x66, 0x6f,
  0x72, 0x74, 0x4d, 0x6f, 0x64, 0x69, 0x66, 0x69, 0x65, 0x64, 0x12, 0x4b, 0x0a, 0x0d, 0x53, 0x65,
  0x74, 0x46, 0x61, 0x6e, 0x50, 0x72, 0x6f, 0x66, 0x69, 0x6c, 0x65, 0x12, 0x1b, 0x2e, 0x63, 0x6f,
  0x6d, 0x66, 0x6f, 0x2e, 0x61, 0x70, 0x69, 0x2e, 0x46, 0x61, 0x6e, 0x50, 0x72, 0x6f, 0x66, 0x69,
  0x6c, 0x65, 0x54, 0x61, 0x72, 0x67, 0x65, 0x74, 0x1a, 0x1d, 0x2e, 0x63, 0x6f, 0x6d, 0x66, 0x6f,
  0x2e, 0x61, 0x70, 0x69, 0x2e, 0x46, 0x61, 0x6e, 0x50, 0x72, 0x6f, 0x66, 0x69, 0x6c, 0x65, 0x4d,
  0x6f, 0x64, 0x69, 0x66, 0x69, 0x65, 0x64, 0x12, 0x49, 0x0a, 0x0a, 0x46, 0x6c, 0x75, 0x73, 0x68,
  0x43, 0x61, 0x63, 0x68, 0x65, 0x12, 0x1c, 0x2e, 0x63, 0x6f, 0x6d, 0x66, 0x6f, 0x2e, 0x61, 0x70,
  0x69, 0x2e, 0x46, 0x6c, 0x75, 0x73, 0x68, 0x43, 0x61, 0x63, 0x68, 0x65, 0x52, 0x65, 0x71, 0x75,
  0x65, 0x73, 0x74, 0x1a, 0x1d, 0x2e, 0x63, 0x6f, 0x6d, 0x66, 0x6f, 0x2e, 0x61, 0x70, 0x69, 0x2e,
  0x46, 0x6c, 0x75, 0x73, 0x68, 0x43, 0x61, 0x63, 0x68, 0x65, 0x52, 0x65, 0x73, 0x70, 0x6f, 0x6e,
  0x73, 0x65, 0x42, 0x28, 0x5a, 0x26, 0x67, 0x69, 0x74, 0x68, 0x75, 0x62, 0x2e, 0x63, 0x6f, 0x6d,
  0x2f, 0x74, 0x69, 0x2d, 0x6d, 0x6f, 0x2f, 0x63, 0x6f, 0x6d, 0x66, 0x6f, 0x2f, 0x72, 0x70, 0x63,
  0x2f, 0x63, 0x6f, 0x6d, 0x66, 0x6f, 0x3b, 0x63, 0x6f, 0x6d, 0x66, 0x6f, 0x62, 0x06, 0x70, 0x72,
  0x6f, 0x74, 0x6f, 0x33]

end Comfo.Pb
