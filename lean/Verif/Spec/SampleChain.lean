/-
A certificate chain of three certificates (P-384): test_key/ecp384/bundle_responder.certchain.der.
-/
import Verif.Codec.Basic

namespace Verif.Spec

/-- the bytes of test_key/ecp384/bundle_responder.certchain.der. -/
def sampleChain : Bytes :=
  [48, 130, 1, 213, 48, 130, 1, 90, 160, 3, 2, 1, 2, 2, 20, 75, 133, 163, 174, 148, 121, 61, 94, 52, 79, 198, 179, 178, 91, 58, 239, 60,
   44, 227, 211, 48, 10, 6, 8, 42, 134, 72, 206, 61, 4, 3, 3, 48, 33, 49, 31, 48, 29, 6, 3, 85, 4, 3, 12, 22, 68, 77, 84, 70, 32, 108, 105,
   98, 115, 112, 100, 109, 32, 69, 67, 80, 50, 53, 54, 32, 67, 65, 48, 30, 23, 13, 50, 51, 48, 52, 48, 51, 48, 53, 53, 53, 53, 51, 90, 23,
   13, 51, 51, 48, 51, 51, 49, 48, 53, 53, 53, 53, 51, 90, 48, 33, 49, 31, 48, 29, 6, 3, 85, 4, 3, 12, 22, 68, 77, 84, 70, 32, 108, 105,
   98, 115, 112, 100, 109, 32, 69, 67, 80, 50, 53, 54, 32, 67, 65, 48, 118, 48, 16, 6, 7, 42, 134, 72, 206, 61, 2, 1, 6, 5, 43, 129, 4, 0,
   34, 3, 98, 0, 4, 20, 220, 96, 59, 122, 9, 143, 76, 108, 169, 253, 148, 224, 34, 197, 171, 231, 86, 22, 241, 167, 96, 132, 120, 100, 147,
   108, 194, 102, 236, 92, 185, 150, 210, 50, 252, 172, 252, 215, 34, 115, 89, 183, 157, 168, 2, 121, 47, 174, 68, 235, 253, 132, 217, 7,
   178, 102, 224, 113, 59, 139, 231, 34, 183, 20, 191, 224, 53, 144, 16, 38, 135, 207, 34, 75, 207, 227, 87, 176, 181, 4, 78, 5, 59, 103,
   139, 123, 31, 100, 28, 235, 103, 186, 81, 233, 168, 163, 83, 48, 81, 48, 29, 6, 3, 85, 29, 14, 4, 22, 4, 20, 45, 230, 46, 186, 96, 217,
   236, 161, 134, 59, 120, 216, 68, 129, 192, 231, 28, 153, 114, 151, 48, 31, 6, 3, 85, 29, 35, 4, 24, 48, 22, 128, 20, 45, 230, 46, 186,
   96, 217, 236, 161, 134, 59, 120, 216, 68, 129, 192, 231, 28, 153, 114, 151, 48, 15, 6, 3, 85, 29, 19, 1, 1, 255, 4, 5, 48, 3, 1, 1, 255,
   48, 10, 6, 8, 42, 134, 72, 206, 61, 4, 3, 3, 3, 105, 0, 48, 102, 2, 49, 0, 199, 140, 81, 104, 159, 62, 101, 184, 151, 8, 187, 52, 96,
   225, 225, 75, 54, 195, 7, 169, 214, 150, 77, 80, 99, 246, 128, 237, 63, 11, 132, 224, 183, 3, 8, 18, 200, 40, 187, 91, 196, 204, 141,
   11, 255, 35, 132, 89, 2, 49, 0, 221, 249, 168, 61, 247, 28, 231, 122, 247, 215, 92, 226, 11, 248, 43, 229, 114, 92, 74, 251, 216, 219,
   186, 8, 241, 120, 148, 57, 221, 13, 60, 30, 31, 0, 42, 88, 81, 82, 94, 177, 47, 186, 230, 179, 123, 149, 245, 64, 48, 130, 1, 218, 48,
   130, 1, 97, 160, 3, 2, 1, 2, 2, 1, 1, 48, 10, 6, 8, 42, 134, 72, 206, 61, 4, 3, 3, 48, 33, 49, 31, 48, 29, 6, 3, 85, 4, 3, 12, 22, 68,
   77, 84, 70, 32, 108, 105, 98, 115, 112, 100, 109, 32, 69, 67, 80, 50, 53, 54, 32, 67, 65, 48, 30, 23, 13, 50, 51, 48, 52, 48, 51, 48,
   53, 53, 53, 53, 51, 90, 23, 13, 51, 51, 48, 51, 51, 49, 48, 53, 53, 53, 53, 51, 90, 48, 48, 49, 46, 48, 44, 6, 3, 85, 4, 3, 12, 37, 68,
   77, 84, 70, 32, 108, 105, 98, 115, 112, 100, 109, 32, 69, 67, 80, 50, 53, 54, 32, 105, 110, 116, 101, 114, 109, 101, 100, 105, 97, 116,
   101, 32, 99, 101, 114, 116, 48, 118, 48, 16, 6, 7, 42, 134, 72, 206, 61, 2, 1, 6, 5, 43, 129, 4, 0, 34, 3, 98, 0, 4, 184, 6, 138, 189,
   120, 100, 162, 102, 105, 116, 9, 216, 217, 6, 252, 83, 207, 94, 226, 200, 216, 67, 88, 51, 165, 6, 255, 15, 192, 248, 234, 20, 114, 204,
   7, 51, 184, 228, 227, 214, 71, 35, 146, 170, 125, 181, 75, 45, 213, 33, 58, 208, 46, 43, 236, 62, 17, 186, 2, 71, 103, 81, 213, 30, 152,
   67, 245, 246, 13, 61, 137, 155, 143, 141, 176, 179, 18, 226, 207, 233, 177, 214, 99, 168, 127, 228, 12, 19, 137, 127, 174, 222, 203,
   120, 106, 121, 163, 94, 48, 92, 48, 12, 6, 3, 85, 29, 19, 4, 5, 48, 3, 1, 1, 255, 48, 11, 6, 3, 85, 29, 15, 4, 4, 3, 2, 1, 254, 48, 29,
   6, 3, 85, 29, 14, 4, 22, 4, 20, 229, 88, 89, 212, 182, 188, 245, 184, 144, 252, 179, 230, 35, 204, 72, 14, 15, 112, 42, 186, 48, 32, 6,
   3, 85, 29, 37, 1, 1, 255, 4, 22, 48, 20, 6, 8, 43, 6, 1, 5, 5, 7, 3, 1, 6, 8, 43, 6, 1, 5, 5, 7, 3, 2, 48, 10, 6, 8, 42, 134, 72, 206,
   61, 4, 3, 3, 3, 103, 0, 48, 100, 2, 48, 10, 146, 160, 221, 142, 30, 35, 134, 57, 40, 197, 210, 123, 67, 87, 28, 84, 193, 152, 205, 57,
   225, 95, 46, 157, 204, 241, 73, 74, 44, 152, 119, 231, 173, 114, 44, 121, 14, 136, 205, 57, 50, 202, 23, 195, 169, 28, 246, 2, 48, 43,
   12, 135, 168, 150, 29, 202, 157, 163, 189, 32, 185, 80, 95, 161, 9, 164, 202, 104, 35, 42, 152, 110, 52, 52, 104, 171, 67, 49, 31, 240,
   147, 60, 165, 150, 54, 88, 164, 50, 241, 67, 239, 127, 229, 83, 69, 122, 52, 48, 130, 2, 66, 48, 130, 1, 200, 160, 3, 2, 1, 2, 2, 1, 3,
   48, 10, 6, 8, 42, 134, 72, 206, 61, 4, 3, 3, 48, 48, 49, 46, 48, 44, 6, 3, 85, 4, 3, 12, 37, 68, 77, 84, 70, 32, 108, 105, 98, 115, 112,
   100, 109, 32, 69, 67, 80, 50, 53, 54, 32, 105, 110, 116, 101, 114, 109, 101, 100, 105, 97, 116, 101, 32, 99, 101, 114, 116, 48, 30, 23,
   13, 50, 51, 48, 52, 48, 51, 48, 53, 53, 53, 53, 52, 90, 23, 13, 51, 51, 48, 51, 51, 49, 48, 53, 53, 53, 53, 52, 90, 48, 45, 49, 43, 48,
   41, 6, 3, 85, 4, 3, 12, 34, 68, 77, 84, 70, 32, 108, 105, 98, 115, 112, 100, 109, 32, 69, 67, 80, 50, 53, 54, 32, 114, 101, 115, 112,
   111, 110, 100, 101, 114, 32, 99, 101, 114, 116, 48, 118, 48, 16, 6, 7, 42, 134, 72, 206, 61, 2, 1, 6, 5, 43, 129, 4, 0, 34, 3, 98, 0, 4,
   62, 97, 74, 31, 216, 230, 181, 63, 252, 37, 76, 186, 5, 112, 7, 244, 180, 79, 31, 30, 144, 140, 97, 82, 3, 16, 141, 136, 20, 178, 209,
   97, 250, 20, 249, 130, 191, 67, 241, 244, 121, 33, 153, 4, 39, 120, 14, 34, 220, 85, 95, 225, 139, 247, 65, 41, 136, 36, 88, 176, 239,
   44, 7, 204, 146, 224, 104, 51, 129, 216, 95, 72, 67, 250, 251, 122, 197, 119, 87, 98, 67, 163, 78, 11, 151, 54, 5, 171, 27, 249, 19,
   197, 103, 90, 161, 200, 163, 129, 184, 48, 129, 181, 48, 12, 6, 3, 85, 29, 19, 1, 1, 255, 4, 2, 48, 0, 48, 11, 6, 3, 85, 29, 15, 4, 4,
   3, 2, 5, 224, 48, 29, 6, 3, 85, 29, 14, 4, 22, 4, 20, 8, 252, 166, 9, 53, 16, 255, 57, 211, 7, 231, 115, 232, 50, 255, 155, 204, 58,
   192, 158, 48, 49, 6, 3, 85, 29, 17, 4, 42, 48, 40, 160, 38, 6, 10, 43, 6, 1, 4, 1, 131, 28, 130, 18, 1, 160, 24, 12, 22, 65, 67, 77, 69,
   58, 87, 73, 68, 71, 69, 84, 58, 49, 50, 51, 52, 53, 54, 55, 56, 57, 48, 48, 42, 6, 3, 85, 29, 37, 1, 1, 255, 4, 32, 48, 30, 6, 8, 43, 6,
   1, 5, 5, 7, 3, 1, 6, 8, 43, 6, 1, 5, 5, 7, 3, 2, 6, 8, 43, 6, 1, 5, 5, 7, 3, 9, 48, 26, 6, 10, 43, 6, 1, 4, 1, 131, 28, 130, 18, 6, 4,
   12, 6, 10, 43, 6, 1, 4, 1, 131, 28, 130, 18, 2, 48, 10, 6, 8, 42, 134, 72, 206, 61, 4, 3, 3, 3, 104, 0, 48, 101, 2, 49, 0, 255, 167, 18,
   0, 115, 247, 7, 53, 201, 182, 114, 204, 136, 198, 77, 152, 81, 207, 217, 65, 253, 71, 5, 63, 80, 28, 203, 169, 214, 39, 81, 252, 178,
   124, 101, 58, 203, 179, 170, 31, 110, 203, 227, 233, 43, 66, 255, 173, 2, 48, 109, 55, 63, 60, 165, 205, 80, 213, 144, 17, 91, 161, 219,
   218, 150, 25, 164, 218, 179, 45, 129, 7, 230, 30, 86, 53, 1, 150, 159, 137, 181, 36, 194, 16, 191, 31, 40, 66, 218, 155, 33, 127, 78,
   134, 194, 107, 216, 173]

end Verif.Spec
