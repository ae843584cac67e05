import Verif.Lemmas.ExampleDisk
/-
Key sets and outputs recorded in /repo by the Python, Java and C++ programs (written by tools/gen_golden.py).
-/
namespace Verif.Golden
open Verif

/-- /repo/python/testdata/aes/meta -/
def pyAesMeta : Bytes :=
  [123, 34, 101, 110, 99, 114, 121, 112, 116, 101, 100, 34, 58, 32, 102, 97, 108, 115, 101, 44, 32,
   34, 118, 101, 114, 115, 105, 111, 110, 115, 34, 58, 32, 91, 123, 34, 115, 116, 97, 116, 117, 115,
   34, 58, 32, 34, 65, 67, 84, 73, 86, 69, 34, 44, 32, 34, 118, 101, 114, 115, 105, 111, 110, 78, 117,
   109, 98, 101, 114, 34, 58, 32, 49, 44, 32, 34, 101, 120, 112, 111, 114, 116, 97, 98, 108, 101, 34,
   58, 32, 102, 97, 108, 115, 101, 125, 44, 32, 123, 34, 115, 116, 97, 116, 117, 115, 34, 58, 32, 34,
   80, 82, 73, 77, 65, 82, 89, 34, 44, 32, 34, 118, 101, 114, 115, 105, 111, 110, 78, 117, 109, 98,
   101, 114, 34, 58, 32, 50, 44, 32, 34, 101, 120, 112, 111, 114, 116, 97, 98, 108, 101, 34, 58, 32,
   102, 97, 108, 115, 101, 125, 93, 44, 32, 34, 116, 121, 112, 101, 34, 58, 32, 34, 65, 69, 83, 34,
   44, 32, 34, 110, 97, 109, 101, 34, 58, 32, 34, 84, 101, 115, 116, 34, 44, 32, 34, 112, 117, 114,
   112, 111, 115, 101, 34, 58, 32, 34, 68, 69, 67, 82, 89, 80, 84, 95, 65, 78, 68, 95, 69, 78, 67, 82,
   89, 80, 84, 34, 125]

/-- /repo/python/testdata/aes/1 -/
def pyAes1 : Bytes :=
  [123, 34, 104, 109, 97, 99, 75, 101, 121, 34, 58, 32, 123, 34, 104, 109, 97, 99, 75, 101, 121, 83,
   116, 114, 105, 110, 103, 34, 58, 32, 34, 54, 102, 108, 90, 45, 109, 72, 81, 87, 113, 81, 74, 120,
   118, 76, 102, 48, 49, 115, 70, 102, 67, 57, 50, 85, 71, 120, 76, 68, 73, 108, 85, 104, 51, 83, 97,
   107, 118, 102, 65, 52, 100, 48, 34, 44, 32, 34, 115, 105, 122, 101, 34, 58, 32, 50, 53, 54, 125,
   44, 32, 34, 97, 101, 115, 75, 101, 121, 83, 116, 114, 105, 110, 103, 34, 58, 32, 34, 111, 73, 56,
   68, 111, 57, 122, 83, 50, 111, 98, 54, 49, 81, 72, 95, 108, 79, 105, 118, 120, 81, 34, 44, 32, 34,
   109, 111, 100, 101, 34, 58, 32, 34, 67, 66, 67, 34, 44, 32, 34, 115, 105, 122, 101, 34, 58, 32, 49,
   50, 56, 125]

/-- /repo/python/testdata/aes/2 -/
def pyAes2 : Bytes :=
  [123, 34, 104, 109, 97, 99, 75, 101, 121, 34, 58, 32, 123, 34, 104, 109, 97, 99, 75, 101, 121, 83,
   116, 114, 105, 110, 103, 34, 58, 32, 34, 102, 76, 105, 76, 78, 102, 52, 79, 57, 90, 72, 85, 112,
   67, 53, 101, 66, 108, 113, 78, 70, 110, 112, 121, 98, 109, 83, 88, 120, 56, 101, 103, 85, 70, 77,
   56, 95, 87, 67, 56, 105, 111, 56, 34, 44, 32, 34, 115, 105, 122, 101, 34, 58, 32, 50, 53, 54, 125,
   44, 32, 34, 97, 101, 115, 75, 101, 121, 83, 116, 114, 105, 110, 103, 34, 58, 32, 34, 49, 87, 110,
   110, 88, 79, 109, 80, 84, 68, 122, 81, 56, 78, 83, 118, 100, 115, 84, 113, 101, 119, 34, 44, 32,
   34, 109, 111, 100, 101, 34, 58, 32, 34, 67, 66, 67, 34, 44, 32, 34, 115, 105, 122, 101, 34, 58, 32,
   49, 50, 56, 125]

/-- /repo/python/testdata/aes/1.out -/
def pyAesOut1 : Bytes :=
  [65, 74, 101, 104, 97, 70, 71, 119, 111, 79, 114, 107, 122, 112, 68, 67, 110, 70, 49, 122, 113, 73,
   105, 55, 50, 49, 101, 67, 79, 77, 89, 87, 82, 109, 76, 121, 82, 121, 110, 51, 104, 120, 121, 104,
   104, 95, 109, 89, 119, 112, 110, 68, 78, 54, 106, 75, 78, 48, 53, 55, 103, 114, 53, 108, 122, 65,
   80, 70, 89, 104, 113, 57, 122, 111, 68, 119, 70, 77, 97, 71, 77, 69, 105, 112, 69, 108, 95, 95, 69,
   67, 79, 90, 71, 101, 97, 120, 87, 119]

/-- /repo/python/testdata/aes/2.out -/
def pyAesOut2 : Bytes :=
  [65, 69, 56, 75, 109, 45, 119, 76, 115, 108, 86, 108, 100, 81, 103, 65, 50, 65, 119, 89, 108, 88,
   98, 54, 90, 71, 48, 81, 117, 51, 82, 76, 87, 67, 102, 49, 97, 74, 115, 45, 48, 95, 120, 106, 71,
   77, 81, 97, 69, 73, 53, 102, 114, 111, 66, 88, 85, 71, 122, 111, 85, 70, 54, 105, 52, 113, 86, 57,
   73, 77, 73, 49, 73, 100, 54, 104, 57, 108, 111, 83, 113, 84, 68, 107, 71, 102, 51, 118, 53, 115,
   122, 53, 98, 45, 57, 75, 115, 103]

/-- /repo/python/testdata/aes -/
def pyAes : Dir := Ex.dir2 pyAesMeta pyAes1 pyAes2

/-- /repo/python/testdata/hmac/meta -/
def pyHmacMeta : Bytes :=
  [123, 34, 101, 110, 99, 114, 121, 112, 116, 101, 100, 34, 58, 32, 102, 97, 108, 115, 101, 44, 32,
   34, 118, 101, 114, 115, 105, 111, 110, 115, 34, 58, 32, 91, 123, 34, 115, 116, 97, 116, 117, 115,
   34, 58, 32, 34, 65, 67, 84, 73, 86, 69, 34, 44, 32, 34, 118, 101, 114, 115, 105, 111, 110, 78, 117,
   109, 98, 101, 114, 34, 58, 32, 49, 44, 32, 34, 101, 120, 112, 111, 114, 116, 97, 98, 108, 101, 34,
   58, 32, 102, 97, 108, 115, 101, 125, 44, 32, 123, 34, 115, 116, 97, 116, 117, 115, 34, 58, 32, 34,
   80, 82, 73, 77, 65, 82, 89, 34, 44, 32, 34, 118, 101, 114, 115, 105, 111, 110, 78, 117, 109, 98,
   101, 114, 34, 58, 32, 50, 44, 32, 34, 101, 120, 112, 111, 114, 116, 97, 98, 108, 101, 34, 58, 32,
   102, 97, 108, 115, 101, 125, 93, 44, 32, 34, 116, 121, 112, 101, 34, 58, 32, 34, 72, 77, 65, 67,
   95, 83, 72, 65, 49, 34, 44, 32, 34, 110, 97, 109, 101, 34, 58, 32, 34, 84, 101, 115, 116, 34, 44,
   32, 34, 112, 117, 114, 112, 111, 115, 101, 34, 58, 32, 34, 83, 73, 71, 78, 95, 65, 78, 68, 95, 86,
   69, 82, 73, 70, 89, 34, 125]

/-- /repo/python/testdata/hmac/1 -/
def pyHmac1 : Bytes :=
  [123, 34, 104, 109, 97, 99, 75, 101, 121, 83, 116, 114, 105, 110, 103, 34, 58, 32, 34, 116, 69, 52,
   49, 87, 50, 71, 70, 103, 120, 107, 51, 51, 82, 110, 90, 72, 100, 97, 69, 55, 122, 45, 80, 118, 65,
   76, 120, 120, 86, 86, 75, 100, 116, 83, 116, 102, 113, 89, 77, 73, 67, 69, 34, 44, 32, 34, 115,
   105, 122, 101, 34, 58, 32, 50, 53, 54, 125]

/-- /repo/python/testdata/hmac/2 -/
def pyHmac2 : Bytes :=
  [123, 34, 104, 109, 97, 99, 75, 101, 121, 83, 116, 114, 105, 110, 103, 34, 58, 32, 34, 69, 117, 121,
   75, 72, 72, 98, 79, 49, 87, 49, 81, 111, 85, 86, 52, 66, 118, 72, 102, 48, 83, 65, 68, 77, 57, 90,
   77, 104, 122, 48, 56, 77, 55, 73, 72, 77, 76, 121, 115, 98, 73, 48, 34, 44, 32, 34, 115, 105, 122,
   101, 34, 58, 32, 50, 53, 54, 125]

/-- /repo/python/testdata/hmac/1.out -/
def pyHmacOut1 : Bytes :=
  [65, 68, 53, 84, 84, 107, 101, 113, 75, 122, 79, 85, 111, 120, 73, 75, 51, 78, 117, 106, 66, 78, 67,
   121, 108, 105, 98, 67, 72, 74, 82, 90, 114, 103]

/-- /repo/python/testdata/hmac/2.out -/
def pyHmacOut2 : Bytes :=
  [65, 69, 99, 89, 117, 120, 115, 87, 98, 114, 103, 65, 66, 72, 89, 50, 76, 95, 118, 69, 107, 53, 79,
   122, 72, 71, 114, 68, 56, 101, 90, 98, 55, 103]

/-- /repo/python/testdata/hmac -/
def pyHmac : Dir := Ex.dir2 pyHmacMeta pyHmac1 pyHmac2

/-- /repo/python/testdata/dsa/meta -/
def pyDsaMeta : Bytes :=
  [123, 34, 101, 110, 99, 114, 121, 112, 116, 101, 100, 34, 58, 32, 102, 97, 108, 115, 101, 44, 32,
   34, 118, 101, 114, 115, 105, 111, 110, 115, 34, 58, 32, 91, 123, 34, 115, 116, 97, 116, 117, 115,
   34, 58, 32, 34, 65, 67, 84, 73, 86, 69, 34, 44, 32, 34, 118, 101, 114, 115, 105, 111, 110, 78, 117,
   109, 98, 101, 114, 34, 58, 32, 49, 44, 32, 34, 101, 120, 112, 111, 114, 116, 97, 98, 108, 101, 34,
   58, 32, 102, 97, 108, 115, 101, 125, 44, 32, 123, 34, 115, 116, 97, 116, 117, 115, 34, 58, 32, 34,
   80, 82, 73, 77, 65, 82, 89, 34, 44, 32, 34, 118, 101, 114, 115, 105, 111, 110, 78, 117, 109, 98,
   101, 114, 34, 58, 32, 50, 44, 32, 34, 101, 120, 112, 111, 114, 116, 97, 98, 108, 101, 34, 58, 32,
   102, 97, 108, 115, 101, 125, 93, 44, 32, 34, 116, 121, 112, 101, 34, 58, 32, 34, 68, 83, 65, 95,
   80, 82, 73, 86, 34, 44, 32, 34, 110, 97, 109, 101, 34, 58, 32, 34, 84, 101, 115, 116, 34, 44, 32,
   34, 112, 117, 114, 112, 111, 115, 101, 34, 58, 32, 34, 83, 73, 71, 78, 95, 65, 78, 68, 95, 86, 69,
   82, 73, 70, 89, 34, 125]

/-- /repo/python/testdata/dsa/1 -/
def pyDsa1 : Bytes :=
  [123, 34, 112, 117, 98, 108, 105, 99, 75, 101, 121, 34, 58, 32, 123, 34, 113, 34, 58, 32, 34, 65,
   74, 78, 110, 103, 71, 117, 95, 114, 100, 56, 103, 80, 115, 120, 78, 118, 75, 89, 108, 107, 107, 50,
   120, 75, 45, 53, 76, 34, 44, 32, 34, 112, 34, 58, 32, 34, 65, 73, 65, 65, 65, 65, 65, 65, 65, 65,
   65, 67, 51, 54, 73, 52, 54, 54, 99, 95, 102, 49, 98, 65, 68, 85, 67, 117, 114, 84, 100, 102, 108,
   75, 104, 65, 68, 70, 112, 87, 79, 116, 109, 82, 111, 66, 104, 117, 120, 78, 101, 65, 111, 117, 120,
   108, 76, 50, 85, 100, 122, 50, 102, 69, 115, 84, 75, 78, 118, 54, 78, 71, 55, 49, 50, 45, 98, 110,
   50, 74, 110, 101, 122, 80, 74, 48, 48, 84, 106, 106, 99, 122, 121, 67, 107, 112, 90, 67, 105, 56,
   66, 51, 97, 49, 53, 103, 116, 106, 108, 50, 113, 82, 87, 101, 108, 48, 114, 110, 76, 110, 73, 87,
   114, 119, 101, 102, 80, 83, 111, 116, 66, 109, 75, 57, 108, 82, 49, 51, 45, 66, 69, 90, 75, 102,
   119, 116, 80, 117, 120, 107, 117, 68, 119, 112, 98, 73, 99, 51, 51, 69, 66, 90, 98, 54, 66, 77,
   112, 104, 111, 66, 90, 76, 34, 44, 32, 34, 121, 34, 58, 32, 34, 65, 71, 68, 76, 56, 71, 75, 68, 65,
   107, 68, 118, 122, 48, 95, 121, 84, 69, 122, 110, 50, 67, 97, 70, 109, 103, 56, 45, 108, 87, 115,
   103, 76, 76, 57, 107, 116, 112, 77, 77, 110, 88, 72, 77, 55, 89, 119, 49, 120, 84, 81, 102, 99, 72,
   101, 66, 112, 108, 69, 67, 57, 122, 73, 100, 109, 113, 82, 118, 116, 70, 54, 57, 74, 89, 95, 112,
   77, 76, 111, 56, 105, 119, 68, 106, 74, 95, 121, 80, 70, 111, 80, 55, 65, 119, 102, 75, 76, 121,
   115, 103, 108, 56, 73, 50, 50, 79, 74, 51, 116, 121, 48, 51, 77, 122, 102, 85, 114, 108, 77, 95,
   45, 79, 118, 79, 108, 119, 65, 97, 107, 78, 75, 111, 116, 99, 106, 52, 122, 74, 98, 104, 107, 79,
   70, 113, 109, 98, 83, 53, 77, 110, 81, 90, 104, 53, 105, 73, 77, 65, 87, 85, 97, 50, 119, 111, 113,
   85, 69, 51, 81, 88, 72, 79, 34, 44, 32, 34, 103, 34, 58, 32, 34, 65, 65, 45, 101, 85, 105, 86, 53,
   57, 113, 97, 54, 73, 104, 84, 75, 65, 77, 102, 97, 113, 57, 114, 48, 120, 103, 67, 57, 115, 72,
   111, 67, 85, 67, 87, 90, 66, 82, 101, 52, 110, 118, 110, 55, 102, 53, 113, 69, 106, 119, 74, 79,
   74, 109, 74, 113, 75, 81, 77, 73, 103, 67, 89, 101, 122, 53, 57, 104, 65, 73, 55, 104, 105, 104,
   103, 85, 66, 113, 66, 68, 106, 48, 118, 45, 121, 106, 99, 89, 75, 45, 101, 104, 115, 118, 115, 56,
   83, 102, 85, 121, 90, 82, 89, 102, 78, 57, 77, 112, 101, 87, 90, 78, 45, 74, 119, 55, 50, 72, 71,
   109, 87, 85, 76, 52, 110, 119, 87, 87, 113, 106, 117, 82, 99, 57, 68, 115, 82, 111, 120, 83, 76,
   72, 117, 117, 104, 105, 54, 107, 75, 83, 84, 101, 67, 99, 103, 82, 114, 50, 68, 74, 119, 112, 66,
   52, 82, 101, 103, 74, 51, 83, 73, 48, 34, 44, 32, 34, 115, 105, 122, 101, 34, 58, 32, 49, 48, 50,
   52, 125, 44, 32, 34, 115, 105, 122, 101, 34, 58, 32, 49, 48, 50, 52, 44, 32, 34, 120, 34, 58, 32,
   34, 65, 65, 97, 82, 120, 56, 87, 69, 75, 107, 107, 118, 80, 111, 114, 89, 48, 89, 115, 50, 75, 112,
   90, 86, 79, 45, 70, 53, 34, 125]

/-- /repo/python/testdata/dsa/2 -/
def pyDsa2 : Bytes :=
  [123, 34, 112, 117, 98, 108, 105, 99, 75, 101, 121, 34, 58, 32, 123, 34, 113, 34, 58, 32, 34, 65,
   73, 110, 103, 121, 56, 69, 90, 114, 71, 70, 109, 71, 74, 68, 86, 75, 88, 117, 121, 54, 115, 107,
   110, 116, 66, 103, 104, 34, 44, 32, 34, 112, 34, 58, 32, 34, 65, 73, 65, 65, 65, 65, 65, 65, 65,
   65, 65, 65, 119, 67, 55, 105, 101, 111, 65, 66, 121, 56, 89, 108, 79, 52, 68, 111, 65, 74, 79, 86,
   81, 73, 71, 95, 116, 56, 76, 70, 65, 111, 112, 112, 53, 84, 102, 106, 81, 77, 101, 114, 113, 68,
   76, 49, 69, 71, 95, 80, 95, 67, 110, 49, 50, 99, 119, 116, 116, 83, 82, 74, 106, 49, 45, 100, 99,
   50, 90, 73, 83, 73, 77, 53, 67, 119, 51, 121, 72, 90, 87, 80, 117, 101, 56, 71, 108, 69, 87, 76,
   97, 55, 72, 56, 56, 97, 103, 66, 119, 88, 100, 86, 50, 120, 68, 120, 48, 69, 51, 89, 113, 70, 82,
   119, 49, 45, 73, 112, 115, 56, 120, 97, 95, 83, 110, 50, 105, 107, 74, 100, 73, 89, 74, 116, 51,
   106, 98, 70, 108, 51, 68, 104, 120, 108, 112, 118, 116, 87, 118, 84, 106, 48, 88, 85, 56, 115, 97,
   82, 95, 88, 95, 57, 34, 44, 32, 34, 121, 34, 58, 32, 34, 65, 71, 109, 76, 84, 111, 113, 119, 108,
   48, 95, 90, 52, 99, 69, 52, 103, 48, 112, 95, 110, 90, 57, 71, 54, 106, 109, 99, 48, 104, 89, 69,
   50, 103, 70, 74, 99, 51, 121, 82, 49, 113, 75, 73, 102, 78, 101, 106, 81, 69, 118, 84, 88, 110, 82,
   115, 81, 77, 115, 49, 83, 79, 71, 101, 66, 65, 111, 101, 73, 45, 68, 68, 112, 50, 79, 71, 110, 85,
   81, 67, 119, 50, 99, 66, 65, 85, 79, 56, 109, 117, 48, 80, 106, 89, 119, 74, 57, 122, 51, 117, 106,
   108, 80, 108, 84, 114, 102, 116, 110, 55, 116, 105, 82, 116, 69, 53, 119, 108, 85, 57, 85, 120, 49,
   100, 84, 120, 86, 72, 79, 103, 82, 49, 71, 89, 105, 99, 87, 56, 56, 88, 50, 52, 79, 77, 121, 122,
   79, 81, 48, 89, 76, 119, 101, 73, 82, 89, 52, 51, 71, 120, 72, 112, 73, 107, 81, 56, 78, 106, 100,
   122, 115, 120, 34, 44, 32, 34, 103, 34, 58, 32, 34, 65, 70, 68, 99, 50, 95, 95, 116, 119, 103, 118,
   79, 97, 119, 67, 85, 108, 116, 102, 115, 84, 66, 56, 72, 80, 101, 107, 57, 51, 56, 68, 85, 81, 86,
   70, 82, 113, 116, 68, 85, 109, 110, 117, 66, 67, 119, 117, 45, 116, 55, 111, 107, 122, 113, 52, 83,
   83, 119, 74, 87, 87, 77, 116, 76, 50, 121, 101, 113, 80, 104, 75, 76, 89, 48, 54, 83, 49, 54, 78,
   111, 100, 90, 119, 70, 98, 68, 84, 76, 67, 116, 112, 83, 108, 73, 75, 102, 66, 120, 74, 86, 72, 87,
   73, 80, 53, 113, 100, 108, 102, 121, 106, 86, 116, 82, 78, 116, 90, 121, 113, 56, 119, 49, 74, 101,
   73, 77, 56, 117, 110, 90, 102, 84, 98, 101, 55, 84, 54, 86, 83, 100, 112, 117, 72, 50, 68, 89, 116,
   51, 83, 103, 53, 87, 56, 120, 77, 81, 84, 76, 102, 106, 72, 48, 73, 107, 45, 71, 112, 118, 98, 74,
   109, 45, 34, 44, 32, 34, 115, 105, 122, 101, 34, 58, 32, 49, 48, 50, 52, 125, 44, 32, 34, 115, 105,
   122, 101, 34, 58, 32, 49, 48, 50, 52, 44, 32, 34, 120, 34, 58, 32, 34, 65, 72, 68, 86, 98, 89, 86,
   111, 118, 97, 57, 115, 52, 80, 57, 65, 56, 108, 50, 73, 120, 54, 45, 54, 85, 81, 88, 51, 34, 125]

/-- /repo/python/testdata/dsa/1.out -/
def pyDsaOut1 : Bytes :=
  [65, 69, 104, 88, 72, 71, 111, 119, 76, 65, 73, 85, 71, 95, 120, 78, 86, 84, 49, 55, 49, 99, 118,
   113, 90, 76, 107, 48, 51, 71, 117, 88, 104, 97, 79, 111, 77, 56, 73, 67, 70, 72, 106, 80, 65, 84,
   51, 79, 68, 80, 121, 53, 113, 110, 104, 68, 104, 66, 51, 76, 117, 121, 120, 54, 85, 71, 79, 116]

/-- /repo/python/testdata/dsa/2.out -/
def pyDsaOut2 : Bytes :=
  [65, 72, 84, 45, 82, 71, 48, 119, 76, 81, 73, 86, 65, 73, 80, 80, 53, 111, 54, 77, 119, 116, 119,
   98, 122, 70, 86, 87, 89, 117, 101, 56, 116, 55, 116, 108, 101, 98, 79, 67, 65, 104, 82, 76, 99,
   115, 78, 67, 113, 116, 53, 101, 67, 107, 50, 55, 78, 113, 71, 99, 104, 80, 80, 95, 48, 65, 80, 114,
   102, 65]

/-- /repo/python/testdata/dsa -/
def pyDsa : Dir := Ex.dir2 pyDsaMeta pyDsa1 pyDsa2

/-- the message of all recorded outputs -/
def msg : Bytes := bstr "This is some test data"

end Verif.Golden
