import Verif.Lemmas.ExampleDisk
/-
Concrete asymmetric key sets for the examples: the files of /repo/python/testdata/dsa, dsa.public
and rsa-sign.
-/
namespace Verif.Ex
open Verif

/-- testdata/dsa/meta -/
def dsaMeta : Bytes :=
  [123, 34, 101, 110, 99, 114, 121, 112, 116, 101, 100, 34, 58, 32, 102, 97, 108, 115, 101, 44,
   32, 34, 118, 101, 114, 115, 105, 111, 110, 115, 34, 58, 32, 91, 123, 34, 115, 116, 97, 116,
   117, 115, 34, 58, 32, 34, 65, 67, 84, 73, 86, 69, 34, 44, 32, 34, 118, 101, 114, 115, 105, 111,
   110, 78, 117, 109, 98, 101, 114, 34, 58, 32, 49, 44, 32, 34, 101, 120, 112, 111, 114, 116, 97,
   98, 108, 101, 34, 58, 32, 102, 97, 108, 115, 101, 125, 44, 32, 123, 34, 115, 116, 97, 116, 117,
   115, 34, 58, 32, 34, 80, 82, 73, 77, 65, 82, 89, 34, 44, 32, 34, 118, 101, 114, 115, 105, 111,
   110, 78, 117, 109, 98, 101, 114, 34, 58, 32, 50, 44, 32, 34, 101, 120, 112, 111, 114, 116, 97,
   98, 108, 101, 34, 58, 32, 102, 97, 108, 115, 101, 125, 93, 44, 32, 34, 116, 121, 112, 101, 34,
   58, 32, 34, 68, 83, 65, 95, 80, 82, 73, 86, 34, 44, 32, 34, 110, 97, 109, 101, 34, 58, 32, 34,
   84, 101, 115, 116, 34, 44, 32, 34, 112, 117, 114, 112, 111, 115, 101, 34, 58, 32, 34, 83, 73,
   71, 78, 95, 65, 78, 68, 95, 86, 69, 82, 73, 70, 89, 34, 125]

/-- testdata/dsa/1 -/
def dsaKey1 : Bytes :=
  [123, 34, 112, 117, 98, 108, 105, 99, 75, 101, 121, 34, 58, 32, 123, 34, 113, 34, 58, 32, 34,
   65, 74, 78, 110, 103, 71, 117, 95, 114, 100, 56, 103, 80, 115, 120, 78, 118, 75, 89, 108, 107,
   107, 50, 120, 75, 45, 53, 76, 34, 44, 32, 34, 112, 34, 58, 32, 34, 65, 73, 65, 65, 65, 65, 65,
   65, 65, 65, 65, 67, 51, 54, 73, 52, 54, 54, 99, 95, 102, 49, 98, 65, 68, 85, 67, 117, 114, 84,
   100, 102, 108, 75, 104, 65, 68, 70, 112, 87, 79, 116, 109, 82, 111, 66, 104, 117, 120, 78, 101,
   65, 111, 117, 120, 108, 76, 50, 85, 100, 122, 50, 102, 69, 115, 84, 75, 78, 118, 54, 78, 71,
   55, 49, 50, 45, 98, 110, 50, 74, 110, 101, 122, 80, 74, 48, 48, 84, 106, 106, 99, 122, 121, 67,
   107, 112, 90, 67, 105, 56, 66, 51, 97, 49, 53, 103, 116, 106, 108, 50, 113, 82, 87, 101, 108,
   48, 114, 110, 76, 110, 73, 87, 114, 119, 101, 102, 80, 83, 111, 116, 66, 109, 75, 57, 108, 82,
   49, 51, 45, 66, 69, 90, 75, 102, 119, 116, 80, 117, 120, 107, 117, 68, 119, 112, 98, 73, 99,
   51, 51, 69, 66, 90, 98, 54, 66, 77, 112, 104, 111, 66, 90, 76, 34, 44, 32, 34, 121, 34, 58, 32,
   34, 65, 71, 68, 76, 56, 71, 75, 68, 65, 107, 68, 118, 122, 48, 95, 121, 84, 69, 122, 110, 50,
   67, 97, 70, 109, 103, 56, 45, 108, 87, 115, 103, 76, 76, 57, 107, 116, 112, 77, 77, 110, 88,
   72, 77, 55, 89, 119, 49, 120, 84, 81, 102, 99, 72, 101, 66, 112, 108, 69, 67, 57, 122, 73, 100,
   109, 113, 82, 118, 116, 70, 54, 57, 74, 89, 95, 112, 77, 76, 111, 56, 105, 119, 68, 106, 74,
   95, 121, 80, 70, 111, 80, 55, 65, 119, 102, 75, 76, 121, 115, 103, 108, 56, 73, 50, 50, 79, 74,
   51, 116, 121, 48, 51, 77, 122, 102, 85, 114, 108, 77, 95, 45, 79, 118, 79, 108, 119, 65, 97,
   107, 78, 75, 111, 116, 99, 106, 52, 122, 74, 98, 104, 107, 79, 70, 113, 109, 98, 83, 53, 77,
   110, 81, 90, 104, 53, 105, 73, 77, 65, 87, 85, 97, 50, 119, 111, 113, 85, 69, 51, 81, 88, 72,
   79, 34, 44, 32, 34, 103, 34, 58, 32, 34, 65, 65, 45, 101, 85, 105, 86, 53, 57, 113, 97, 54, 73,
   104, 84, 75, 65, 77, 102, 97, 113, 57, 114, 48, 120, 103, 67, 57, 115, 72, 111, 67, 85, 67, 87,
   90, 66, 82, 101, 52, 110, 118, 110, 55, 102, 53, 113, 69, 106, 119, 74, 79, 74, 109, 74, 113,
   75, 81, 77, 73, 103, 67, 89, 101, 122, 53, 57, 104, 65, 73, 55, 104, 105, 104, 103, 85, 66,
   113, 66, 68, 106, 48, 118, 45, 121, 106, 99, 89, 75, 45, 101, 104, 115, 118, 115, 56, 83, 102,
   85, 121, 90, 82, 89, 102, 78, 57, 77, 112, 101, 87, 90, 78, 45, 74, 119, 55, 50, 72, 71, 109,
   87, 85, 76, 52, 110, 119, 87, 87, 113, 106, 117, 82, 99, 57, 68, 115, 82, 111, 120, 83, 76, 72,
   117, 117, 104, 105, 54, 107, 75, 83, 84, 101, 67, 99, 103, 82, 114, 50, 68, 74, 119, 112, 66,
   52, 82, 101, 103, 74, 51, 83, 73, 48, 34, 44, 32, 34, 115, 105, 122, 101, 34, 58, 32, 49, 48,
   50, 52, 125, 44, 32, 34, 115, 105, 122, 101, 34, 58, 32, 49, 48, 50, 52, 44, 32, 34, 120, 34,
   58, 32, 34, 65, 65, 97, 82, 120, 56, 87, 69, 75, 107, 107, 118, 80, 111, 114, 89, 48, 89, 115,
   50, 75, 112, 90, 86, 79, 45, 70, 53, 34, 125]

/-- testdata/dsa/2 -/
def dsaKey2 : Bytes :=
  [123, 34, 112, 117, 98, 108, 105, 99, 75, 101, 121, 34, 58, 32, 123, 34, 113, 34, 58, 32, 34,
   65, 73, 110, 103, 121, 56, 69, 90, 114, 71, 70, 109, 71, 74, 68, 86, 75, 88, 117, 121, 54, 115,
   107, 110, 116, 66, 103, 104, 34, 44, 32, 34, 112, 34, 58, 32, 34, 65, 73, 65, 65, 65, 65, 65,
   65, 65, 65, 65, 65, 119, 67, 55, 105, 101, 111, 65, 66, 121, 56, 89, 108, 79, 52, 68, 111, 65,
   74, 79, 86, 81, 73, 71, 95, 116, 56, 76, 70, 65, 111, 112, 112, 53, 84, 102, 106, 81, 77, 101,
   114, 113, 68, 76, 49, 69, 71, 95, 80, 95, 67, 110, 49, 50, 99, 119, 116, 116, 83, 82, 74, 106,
   49, 45, 100, 99, 50, 90, 73, 83, 73, 77, 53, 67, 119, 51, 121, 72, 90, 87, 80, 117, 101, 56,
   71, 108, 69, 87, 76, 97, 55, 72, 56, 56, 97, 103, 66, 119, 88, 100, 86, 50, 120, 68, 120, 48,
   69, 51, 89, 113, 70, 82, 119, 49, 45, 73, 112, 115, 56, 120, 97, 95, 83, 110, 50, 105, 107, 74,
   100, 73, 89, 74, 116, 51, 106, 98, 70, 108, 51, 68, 104, 120, 108, 112, 118, 116, 87, 118, 84,
   106, 48, 88, 85, 56, 115, 97, 82, 95, 88, 95, 57, 34, 44, 32, 34, 121, 34, 58, 32, 34, 65, 71,
   109, 76, 84, 111, 113, 119, 108, 48, 95, 90, 52, 99, 69, 52, 103, 48, 112, 95, 110, 90, 57, 71,
   54, 106, 109, 99, 48, 104, 89, 69, 50, 103, 70, 74, 99, 51, 121, 82, 49, 113, 75, 73, 102, 78,
   101, 106, 81, 69, 118, 84, 88, 110, 82, 115, 81, 77, 115, 49, 83, 79, 71, 101, 66, 65, 111,
   101, 73, 45, 68, 68, 112, 50, 79, 71, 110, 85, 81, 67, 119, 50, 99, 66, 65, 85, 79, 56, 109,
   117, 48, 80, 106, 89, 119, 74, 57, 122, 51, 117, 106, 108, 80, 108, 84, 114, 102, 116, 110, 55,
   116, 105, 82, 116, 69, 53, 119, 108, 85, 57, 85, 120, 49, 100, 84, 120, 86, 72, 79, 103, 82,
   49, 71, 89, 105, 99, 87, 56, 56, 88, 50, 52, 79, 77, 121, 122, 79, 81, 48, 89, 76, 119, 101,
   73, 82, 89, 52, 51, 71, 120, 72, 112, 73, 107, 81, 56, 78, 106, 100, 122, 115, 120, 34, 44, 32,
   34, 103, 34, 58, 32, 34, 65, 70, 68, 99, 50, 95, 95, 116, 119, 103, 118, 79, 97, 119, 67, 85,
   108, 116, 102, 115, 84, 66, 56, 72, 80, 101, 107, 57, 51, 56, 68, 85, 81, 86, 70, 82, 113, 116,
   68, 85, 109, 110, 117, 66, 67, 119, 117, 45, 116, 55, 111, 107, 122, 113, 52, 83, 83, 119, 74,
   87, 87, 77, 116, 76, 50, 121, 101, 113, 80, 104, 75, 76, 89, 48, 54, 83, 49, 54, 78, 111, 100,
   90, 119, 70, 98, 68, 84, 76, 67, 116, 112, 83, 108, 73, 75, 102, 66, 120, 74, 86, 72, 87, 73,
   80, 53, 113, 100, 108, 102, 121, 106, 86, 116, 82, 78, 116, 90, 121, 113, 56, 119, 49, 74, 101,
   73, 77, 56, 117, 110, 90, 102, 84, 98, 101, 55, 84, 54, 86, 83, 100, 112, 117, 72, 50, 68, 89,
   116, 51, 83, 103, 53, 87, 56, 120, 77, 81, 84, 76, 102, 106, 72, 48, 73, 107, 45, 71, 112, 118,
   98, 74, 109, 45, 34, 44, 32, 34, 115, 105, 122, 101, 34, 58, 32, 49, 48, 50, 52, 125, 44, 32,
   34, 115, 105, 122, 101, 34, 58, 32, 49, 48, 50, 52, 44, 32, 34, 120, 34, 58, 32, 34, 65, 72,
   68, 86, 98, 89, 86, 111, 118, 97, 57, 115, 52, 80, 57, 65, 56, 108, 50, 73, 120, 54, 45, 54,
   85, 81, 88, 51, 34, 125]

/-- testdata/dsa.public/meta -/
def dsaPubMeta : Bytes :=
  [123, 34, 101, 110, 99, 114, 121, 112, 116, 101, 100, 34, 58, 32, 102, 97, 108, 115, 101, 44,
   32, 34, 118, 101, 114, 115, 105, 111, 110, 115, 34, 58, 32, 91, 123, 34, 115, 116, 97, 116,
   117, 115, 34, 58, 32, 34, 65, 67, 84, 73, 86, 69, 34, 44, 32, 34, 118, 101, 114, 115, 105, 111,
   110, 78, 117, 109, 98, 101, 114, 34, 58, 32, 49, 44, 32, 34, 101, 120, 112, 111, 114, 116, 97,
   98, 108, 101, 34, 58, 32, 102, 97, 108, 115, 101, 125, 44, 32, 123, 34, 115, 116, 97, 116, 117,
   115, 34, 58, 32, 34, 80, 82, 73, 77, 65, 82, 89, 34, 44, 32, 34, 118, 101, 114, 115, 105, 111,
   110, 78, 117, 109, 98, 101, 114, 34, 58, 32, 50, 44, 32, 34, 101, 120, 112, 111, 114, 116, 97,
   98, 108, 101, 34, 58, 32, 102, 97, 108, 115, 101, 125, 93, 44, 32, 34, 116, 121, 112, 101, 34,
   58, 32, 34, 68, 83, 65, 95, 80, 85, 66, 34, 44, 32, 34, 110, 97, 109, 101, 34, 58, 32, 34, 84,
   101, 115, 116, 34, 44, 32, 34, 112, 117, 114, 112, 111, 115, 101, 34, 58, 32, 34, 86, 69, 82,
   73, 70, 89, 34, 125]

/-- testdata/dsa.public/1 -/
def dsaPubKey1 : Bytes :=
  [123, 34, 113, 34, 58, 32, 34, 65, 74, 78, 110, 103, 71, 117, 95, 114, 100, 56, 103, 80, 115,
   120, 78, 118, 75, 89, 108, 107, 107, 50, 120, 75, 45, 53, 76, 34, 44, 32, 34, 112, 34, 58, 32,
   34, 65, 73, 65, 65, 65, 65, 65, 65, 65, 65, 65, 67, 51, 54, 73, 52, 54, 54, 99, 95, 102, 49,
   98, 65, 68, 85, 67, 117, 114, 84, 100, 102, 108, 75, 104, 65, 68, 70, 112, 87, 79, 116, 109,
   82, 111, 66, 104, 117, 120, 78, 101, 65, 111, 117, 120, 108, 76, 50, 85, 100, 122, 50, 102, 69,
   115, 84, 75, 78, 118, 54, 78, 71, 55, 49, 50, 45, 98, 110, 50, 74, 110, 101, 122, 80, 74, 48,
   48, 84, 106, 106, 99, 122, 121, 67, 107, 112, 90, 67, 105, 56, 66, 51, 97, 49, 53, 103, 116,
   106, 108, 50, 113, 82, 87, 101, 108, 48, 114, 110, 76, 110, 73, 87, 114, 119, 101, 102, 80, 83,
   111, 116, 66, 109, 75, 57, 108, 82, 49, 51, 45, 66, 69, 90, 75, 102, 119, 116, 80, 117, 120,
   107, 117, 68, 119, 112, 98, 73, 99, 51, 51, 69, 66, 90, 98, 54, 66, 77, 112, 104, 111, 66, 90,
   76, 34, 44, 32, 34, 121, 34, 58, 32, 34, 65, 71, 68, 76, 56, 71, 75, 68, 65, 107, 68, 118, 122,
   48, 95, 121, 84, 69, 122, 110, 50, 67, 97, 70, 109, 103, 56, 45, 108, 87, 115, 103, 76, 76, 57,
   107, 116, 112, 77, 77, 110, 88, 72, 77, 55, 89, 119, 49, 120, 84, 81, 102, 99, 72, 101, 66,
   112, 108, 69, 67, 57, 122, 73, 100, 109, 113, 82, 118, 116, 70, 54, 57, 74, 89, 95, 112, 77,
   76, 111, 56, 105, 119, 68, 106, 74, 95, 121, 80, 70, 111, 80, 55, 65, 119, 102, 75, 76, 121,
   115, 103, 108, 56, 73, 50, 50, 79, 74, 51, 116, 121, 48, 51, 77, 122, 102, 85, 114, 108, 77,
   95, 45, 79, 118, 79, 108, 119, 65, 97, 107, 78, 75, 111, 116, 99, 106, 52, 122, 74, 98, 104,
   107, 79, 70, 113, 109, 98, 83, 53, 77, 110, 81, 90, 104, 53, 105, 73, 77, 65, 87, 85, 97, 50,
   119, 111, 113, 85, 69, 51, 81, 88, 72, 79, 34, 44, 32, 34, 103, 34, 58, 32, 34, 65, 65, 45,
   101, 85, 105, 86, 53, 57, 113, 97, 54, 73, 104, 84, 75, 65, 77, 102, 97, 113, 57, 114, 48, 120,
   103, 67, 57, 115, 72, 111, 67, 85, 67, 87, 90, 66, 82, 101, 52, 110, 118, 110, 55, 102, 53,
   113, 69, 106, 119, 74, 79, 74, 109, 74, 113, 75, 81, 77, 73, 103, 67, 89, 101, 122, 53, 57,
   104, 65, 73, 55, 104, 105, 104, 103, 85, 66, 113, 66, 68, 106, 48, 118, 45, 121, 106, 99, 89,
   75, 45, 101, 104, 115, 118, 115, 56, 83, 102, 85, 121, 90, 82, 89, 102, 78, 57, 77, 112, 101,
   87, 90, 78, 45, 74, 119, 55, 50, 72, 71, 109, 87, 85, 76, 52, 110, 119, 87, 87, 113, 106, 117,
   82, 99, 57, 68, 115, 82, 111, 120, 83, 76, 72, 117, 117, 104, 105, 54, 107, 75, 83, 84, 101,
   67, 99, 103, 82, 114, 50, 68, 74, 119, 112, 66, 52, 82, 101, 103, 74, 51, 83, 73, 48, 34, 44,
   32, 34, 115, 105, 122, 101, 34, 58, 32, 49, 48, 50, 52, 125]

/-- testdata/dsa.public/2 -/
def dsaPubKey2 : Bytes :=
  [123, 34, 113, 34, 58, 32, 34, 65, 73, 110, 103, 121, 56, 69, 90, 114, 71, 70, 109, 71, 74, 68,
   86, 75, 88, 117, 121, 54, 115, 107, 110, 116, 66, 103, 104, 34, 44, 32, 34, 112, 34, 58, 32,
   34, 65, 73, 65, 65, 65, 65, 65, 65, 65, 65, 65, 65, 119, 67, 55, 105, 101, 111, 65, 66, 121,
   56, 89, 108, 79, 52, 68, 111, 65, 74, 79, 86, 81, 73, 71, 95, 116, 56, 76, 70, 65, 111, 112,
   112, 53, 84, 102, 106, 81, 77, 101, 114, 113, 68, 76, 49, 69, 71, 95, 80, 95, 67, 110, 49, 50,
   99, 119, 116, 116, 83, 82, 74, 106, 49, 45, 100, 99, 50, 90, 73, 83, 73, 77, 53, 67, 119, 51,
   121, 72, 90, 87, 80, 117, 101, 56, 71, 108, 69, 87, 76, 97, 55, 72, 56, 56, 97, 103, 66, 119,
   88, 100, 86, 50, 120, 68, 120, 48, 69, 51, 89, 113, 70, 82, 119, 49, 45, 73, 112, 115, 56, 120,
   97, 95, 83, 110, 50, 105, 107, 74, 100, 73, 89, 74, 116, 51, 106, 98, 70, 108, 51, 68, 104,
   120, 108, 112, 118, 116, 87, 118, 84, 106, 48, 88, 85, 56, 115, 97, 82, 95, 88, 95, 57, 34, 44,
   32, 34, 121, 34, 58, 32, 34, 65, 71, 109, 76, 84, 111, 113, 119, 108, 48, 95, 90, 52, 99, 69,
   52, 103, 48, 112, 95, 110, 90, 57, 71, 54, 106, 109, 99, 48, 104, 89, 69, 50, 103, 70, 74, 99,
   51, 121, 82, 49, 113, 75, 73, 102, 78, 101, 106, 81, 69, 118, 84, 88, 110, 82, 115, 81, 77,
   115, 49, 83, 79, 71, 101, 66, 65, 111, 101, 73, 45, 68, 68, 112, 50, 79, 71, 110, 85, 81, 67,
   119, 50, 99, 66, 65, 85, 79, 56, 109, 117, 48, 80, 106, 89, 119, 74, 57, 122, 51, 117, 106,
   108, 80, 108, 84, 114, 102, 116, 110, 55, 116, 105, 82, 116, 69, 53, 119, 108, 85, 57, 85, 120,
   49, 100, 84, 120, 86, 72, 79, 103, 82, 49, 71, 89, 105, 99, 87, 56, 56, 88, 50, 52, 79, 77,
   121, 122, 79, 81, 48, 89, 76, 119, 101, 73, 82, 89, 52, 51, 71, 120, 72, 112, 73, 107, 81, 56,
   78, 106, 100, 122, 115, 120, 34, 44, 32, 34, 103, 34, 58, 32, 34, 65, 70, 68, 99, 50, 95, 95,
   116, 119, 103, 118, 79, 97, 119, 67, 85, 108, 116, 102, 115, 84, 66, 56, 72, 80, 101, 107, 57,
   51, 56, 68, 85, 81, 86, 70, 82, 113, 116, 68, 85, 109, 110, 117, 66, 67, 119, 117, 45, 116, 55,
   111, 107, 122, 113, 52, 83, 83, 119, 74, 87, 87, 77, 116, 76, 50, 121, 101, 113, 80, 104, 75,
   76, 89, 48, 54, 83, 49, 54, 78, 111, 100, 90, 119, 70, 98, 68, 84, 76, 67, 116, 112, 83, 108,
   73, 75, 102, 66, 120, 74, 86, 72, 87, 73, 80, 53, 113, 100, 108, 102, 121, 106, 86, 116, 82,
   78, 116, 90, 121, 113, 56, 119, 49, 74, 101, 73, 77, 56, 117, 110, 90, 102, 84, 98, 101, 55,
   84, 54, 86, 83, 100, 112, 117, 72, 50, 68, 89, 116, 51, 83, 103, 53, 87, 56, 120, 77, 81, 84,
   76, 102, 106, 72, 48, 73, 107, 45, 71, 112, 118, 98, 74, 109, 45, 34, 44, 32, 34, 115, 105,
   122, 101, 34, 58, 32, 49, 48, 50, 52, 125]

/-- testdata/rsa-sign/meta -/
def rsaSignMeta : Bytes :=
  [123, 34, 101, 110, 99, 114, 121, 112, 116, 101, 100, 34, 58, 32, 102, 97, 108, 115, 101, 44,
   32, 34, 118, 101, 114, 115, 105, 111, 110, 115, 34, 58, 32, 91, 123, 34, 115, 116, 97, 116,
   117, 115, 34, 58, 32, 34, 65, 67, 84, 73, 86, 69, 34, 44, 32, 34, 118, 101, 114, 115, 105, 111,
   110, 78, 117, 109, 98, 101, 114, 34, 58, 32, 49, 44, 32, 34, 101, 120, 112, 111, 114, 116, 97,
   98, 108, 101, 34, 58, 32, 102, 97, 108, 115, 101, 125, 44, 32, 123, 34, 115, 116, 97, 116, 117,
   115, 34, 58, 32, 34, 80, 82, 73, 77, 65, 82, 89, 34, 44, 32, 34, 118, 101, 114, 115, 105, 111,
   110, 78, 117, 109, 98, 101, 114, 34, 58, 32, 50, 44, 32, 34, 101, 120, 112, 111, 114, 116, 97,
   98, 108, 101, 34, 58, 32, 102, 97, 108, 115, 101, 125, 93, 44, 32, 34, 116, 121, 112, 101, 34,
   58, 32, 34, 82, 83, 65, 95, 80, 82, 73, 86, 34, 44, 32, 34, 110, 97, 109, 101, 34, 58, 32, 34,
   84, 101, 115, 116, 34, 44, 32, 34, 112, 117, 114, 112, 111, 115, 101, 34, 58, 32, 34, 83, 73,
   71, 78, 95, 65, 78, 68, 95, 86, 69, 82, 73, 70, 89, 34, 125]

/-- testdata/rsa-sign/1 -/
def rsaSignKey1 : Bytes :=
  [123, 34, 112, 114, 105, 109, 101, 69, 120, 112, 111, 110, 101, 110, 116, 80, 34, 58, 32, 34,
   65, 66, 57, 114, 73, 51, 100, 104, 55, 101, 121, 51, 75, 122, 76, 83, 49, 72, 110, 76, 67, 104,
   56, 65, 79, 71, 50, 55, 76, 77, 83, 51, 105, 50, 110, 77, 110, 74, 76, 67, 84, 102, 69, 101,
   105, 76, 97, 89, 75, 85, 104, 97, 50, 74, 116, 117, 82, 115, 97, 95, 102, 52, 80, 69, 68, 122,
   79, 48, 122, 78, 109, 57, 68, 120, 68, 119, 79, 104, 117, 99, 115, 106, 76, 65, 78, 121, 69,
   68, 115, 66, 95, 122, 80, 80, 73, 107, 120, 112, 71, 48, 98, 107, 57, 65, 67, 90, 85, 80, 103,
   117, 49, 99, 103, 55, 57, 118, 90, 120, 85, 116, 52, 89, 97, 84, 76, 88, 105, 113, 105, 118,
   90, 49, 48, 102, 56, 71, 122, 74, 120, 87, 54, 115, 111, 107, 102, 118, 105, 110, 75, 119, 53,
   52, 111, 113, 109, 81, 57, 105, 56, 120, 115, 120, 106, 71, 98, 97, 45, 52, 71, 65, 86, 104,
   34, 44, 32, 34, 112, 114, 105, 109, 101, 69, 120, 112, 111, 110, 101, 110, 116, 81, 34, 58, 32,
   34, 65, 69, 66, 71, 100, 88, 50, 98, 81, 95, 98, 110, 103, 102, 113, 108, 71, 48, 101, 78, 80,
   108, 88, 82, 85, 78, 118, 67, 71, 112, 68, 116, 120, 87, 113, 99, 67, 76, 85, 56, 106, 78, 120,
   110, 113, 90, 109, 102, 88, 72, 100, 83, 79, 104, 69, 50, 73, 49, 45, 52, 109, 114, 57, 106,
   114, 117, 80, 116, 69, 70, 80, 100, 108, 78, 99, 71, 115, 114, 107, 76, 66, 72, 72, 108, 99,
   67, 103, 115, 78, 76, 71, 87, 97, 108, 107, 69, 52, 50, 65, 116, 55, 98, 82, 95, 79, 117, 54,
   95, 48, 69, 122, 81, 112, 72, 110, 57, 88, 122, 77, 50, 71, 107, 114, 48, 52, 121, 116, 80, 56,
   99, 76, 53, 67, 118, 80, 84, 115, 73, 100, 72, 89, 73, 74, 65, 84, 120, 73, 113, 73, 78, 122,
   57, 55, 69, 112, 50, 53, 84, 112, 89, 89, 72, 98, 79, 71, 119, 119, 73, 50, 114, 70, 53, 34,
   44, 32, 34, 99, 114, 116, 67, 111, 101, 102, 102, 105, 99, 105, 101, 110, 116, 34, 58, 32, 34,
   65, 65, 88, 68, 74, 56, 79, 73, 121, 117, 75, 109, 108, 68, 104, 97, 89, 51, 78, 112, 82, 97,
   115, 53, 55, 122, 50, 67, 119, 98, 84, 79, 102, 114, 118, 95, 95, 100, 54, 114, 66, 49, 97, 67,
   121, 55, 119, 79, 117, 50, 116, 45, 87, 97, 121, 119, 57, 116, 56, 71, 104, 89, 83, 52, 105,
   75, 86, 108, 74, 116, 109, 100, 56, 80, 119, 81, 118, 71, 90, 101, 66, 66, 71, 97, 85, 115,
   112, 71, 95, 86, 101, 111, 85, 104, 90, 87, 86, 69, 111, 119, 49, 99, 71, 50, 53, 104, 69, 79,
   68, 112, 65, 86, 121, 122, 82, 51, 57, 81, 118, 110, 122, 90, 84, 73, 122, 100, 56, 72, 67, 86,
   90, 52, 52, 72, 45, 105, 48, 56, 119, 67, 117, 65, 116, 103, 69, 53, 53, 69, 66, 76, 118, 48,
   108, 69, 87, 114, 80, 74, 69, 115, 51, 107, 66, 73, 53, 99, 111, 116, 85, 105, 116, 76, 34, 44,
   32, 34, 112, 114, 105, 118, 97, 116, 101, 69, 120, 112, 111, 110, 101, 110, 116, 34, 58, 32,
   34, 65, 67, 86, 99, 74, 113, 117, 73, 88, 87, 76, 86, 57, 51, 88, 54, 65, 119, 82, 116, 100,
   113, 50, 80, 67, 115, 76, 48, 68, 113, 57, 104, 53, 78, 77, 45, 95, 49, 86, 90, 102, 72, 51,
   76, 87, 106, 112, 100, 65, 74, 84, 76, 110, 104, 98, 50, 118, 72, 57, 79, 48, 97, 102, 81, 95,
   81, 66, 51, 122, 72, 45, 81, 106, 45, 78, 112, 66, 101, 90, 122, 99, 114, 53, 99, 49, 81, 99,
   68, 71, 73, 116, 101, 102, 48, 80, 54, 87, 95, 108, 106, 49, 95, 65, 97, 81, 90, 114, 95, 81,
   85, 85, 55, 76, 117, 45, 71, 97, 105, 112, 45, 89, 118, 121, 102, 100, 121, 55, 88, 51, 116,
   116, 95, 116, 117, 80, 77, 98, 72, 67, 74, 90, 69, 105, 51, 69, 56, 88, 57, 101, 111, 53, 111,
   115, 111, 78, 89, 83, 87, 72, 51, 118, 68, 117, 53, 51, 108, 109, 51, 78, 117, 122, 49, 102,
   88, 75, 77, 112, 89, 102, 103, 56, 53, 120, 113, 118, 119, 86, 49, 74, 110, 71, 74, 100, 104,
   105, 55, 77, 120, 102, 107, 79, 89, 81, 69, 102, 51, 86, 67, 89, 45, 83, 116, 73, 116, 65, 88,
   68, 119, 114, 67, 78, 89, 117, 75, 67, 99, 103, 101, 119, 111, 120, 97, 122, 70, 54, 80, 82,
   53, 45, 84, 53, 71, 69, 76, 56, 49, 70, 72, 95, 84, 75, 108, 121, 111, 100, 112, 95, 86, 56,
   105, 104, 90, 69, 111, 122, 51, 49, 104, 89, 72, 90, 102, 69, 80, 99, 56, 66, 120, 118, 104,
   48, 120, 113, 67, 45, 57, 75, 51, 108, 85, 101, 108, 100, 84, 83, 90, 73, 79, 73, 84, 45, 121,
   105, 69, 115, 70, 77, 56, 70, 117, 66, 83, 78, 89, 80, 69, 48, 90, 70, 54, 107, 107, 114, 121,
   103, 66, 86, 78, 95, 114, 101, 51, 105, 86, 69, 77, 48, 121, 105, 69, 57, 71, 107, 34, 44, 32,
   34, 112, 117, 98, 108, 105, 99, 75, 101, 121, 34, 58, 32, 123, 34, 112, 117, 98, 108, 105, 99,
   69, 120, 112, 111, 110, 101, 110, 116, 34, 58, 32, 34, 65, 65, 69, 65, 65, 81, 34, 44, 32, 34,
   109, 111, 100, 117, 108, 117, 115, 34, 58, 32, 34, 65, 73, 66, 114, 107, 45, 57, 87, 90, 117,
   84, 108, 81, 100, 57, 80, 118, 106, 50, 65, 108, 53, 114, 106, 95, 116, 104, 102, 49, 108, 53,
   102, 102, 118, 82, 101, 113, 120, 53, 118, 121, 112, 113, 55, 76, 70, 118, 119, 74, 70, 83,
   122, 85, 81, 50, 117, 67, 76, 112, 112, 99, 83, 118, 120, 73, 107, 73, 116, 52, 84, 100, 51,
   121, 101, 112, 101, 75, 119, 78, 102, 57, 122, 100, 88, 76, 45, 68, 49, 86, 84, 50, 53, 104,
   68, 120, 106, 121, 103, 85, 90, 106, 108, 112, 81, 71, 104, 67, 50, 95, 77, 72, 87, 119, 82,
   52, 68, 110, 119, 80, 109, 117, 83, 119, 110, 101, 81, 95, 51, 75, 84, 90, 112, 95, 53, 66, 85,
   51, 76, 77, 107, 76, 118, 103, 102, 105, 73, 78, 45, 107, 104, 87, 119, 74, 102, 106, 107, 57,
   55, 116, 55, 118, 119, 57, 66, 74, 105, 100, 120, 88, 66, 88, 68, 85, 68, 118, 106, 80, 95,
   108, 84, 51, 54, 52, 100, 80, 103, 97, 105, 89, 117, 99, 100, 89, 51, 49, 97, 66, 113, 57, 116,
   73, 121, 49, 66, 53, 57, 66, 122, 95, 117, 107, 122, 54, 88, 51, 68, 114, 121, 70, 119, 100,
   105, 75, 65, 65, 100, 77, 73, 75, 111, 113, 52, 115, 78, 66, 84, 97, 74, 87, 105, 115, 71, 112,
   74, 101, 87, 102, 70, 106, 85, 102, 113, 119, 122, 88, 73, 113, 100, 54, 118, 51, 88, 51, 79,
   68, 67, 54, 109, 78, 113, 53, 74, 54, 54, 100, 79, 78, 120, 57, 81, 45, 82, 49, 89, 113, 107,
   83, 85, 111, 49, 50, 52, 77, 116, 121, 121, 95, 54, 74, 86, 48, 109, 70, 77, 51, 89, 122, 70,
   80, 111, 72, 98, 97, 84, 74, 97, 105, 55, 110, 103, 45, 56, 87, 102, 73, 50, 97, 74, 49, 78,
   108, 49, 110, 116, 72, 118, 80, 101, 117, 101, 89, 54, 69, 34, 44, 32, 34, 115, 105, 122, 101,
   34, 58, 32, 50, 48, 52, 56, 125, 44, 32, 34, 112, 114, 105, 109, 101, 81, 34, 58, 32, 34, 65,
   75, 98, 81, 107, 113, 121, 115, 119, 54, 81, 108, 90, 97, 56, 77, 54, 106, 67, 113, 115, 119,
   89, 122, 90, 57, 74, 122, 84, 52, 48, 45, 84, 51, 118, 54, 49, 57, 79, 98, 56, 78, 102, 119,
   48, 69, 106, 67, 79, 74, 105, 102, 73, 120, 121, 88, 79, 76, 87, 103, 45, 82, 68, 81, 70, 50,
   57, 70, 113, 50, 116, 109, 74, 57, 52, 51, 86, 71, 74, 118, 102, 89, 53, 81, 79, 121, 52, 55,
   97, 112, 89, 55, 117, 122, 103, 110, 51, 97, 110, 50, 112, 116, 111, 51, 79, 90, 112, 84, 83,
   70, 109, 76, 57, 74, 100, 98, 73, 88, 88, 118, 114, 70, 65, 101, 57, 107, 57, 117, 84, 50, 51,
   77, 57, 121, 115, 115, 88, 100, 50, 99, 107, 80, 74, 88, 114, 50, 106, 66, 105, 111, 51, 95,
   104, 115, 70, 50, 78, 67, 108, 87, 104, 106, 100, 103, 53, 85, 120, 108, 120, 85, 52, 118, 34,
   44, 32, 34, 112, 114, 105, 109, 101, 80, 34, 58, 32, 34, 65, 77, 85, 85, 69, 73, 98, 45, 75,
   51, 117, 100, 121, 117, 50, 71, 112, 98, 45, 120, 115, 69, 86, 65, 101, 100, 45, 77, 109, 122,
   53, 119, 104, 73, 113, 86, 54, 103, 102, 81, 77, 69, 51, 116, 48, 76, 66, 119, 72, 112, 100,
   116, 90, 116, 52, 80, 118, 69, 122, 45, 77, 88, 111, 67, 48, 83, 86, 88, 99, 66, 89, 121, 90,
   88, 48, 75, 50, 119, 118, 116, 104, 85, 100, 111, 54, 110, 102, 87, 70, 72, 109, 100, 73, 88,
   82, 54, 73, 119, 122, 81, 107, 70, 119, 87, 107, 65, 67, 100, 90, 119, 100, 118, 88, 90, 106,
   52, 116, 103, 82, 118, 72, 70, 88, 52, 112, 111, 79, 72, 86, 51, 76, 105, 122, 102, 65, 107,
   87, 106, 55, 80, 57, 69, 80, 79, 67, 117, 103, 56, 100, 117, 122, 104, 99, 117, 117, 122, 56,
   70, 75, 70, 87, 84, 45, 45, 83, 57, 66, 81, 75, 107, 99, 118, 34, 44, 32, 34, 115, 105, 122,
   101, 34, 58, 32, 50, 48, 52, 56, 125]

/-- testdata/rsa-sign/2 -/
def rsaSignKey2 : Bytes :=
  [123, 34, 112, 114, 105, 109, 101, 69, 120, 112, 111, 110, 101, 110, 116, 80, 34, 58, 32, 34,
   65, 76, 67, 55, 71, 86, 66, 113, 81, 70, 105, 102, 71, 106, 65, 83, 68, 66, 108, 76, 98, 84,
   75, 74, 110, 105, 108, 87, 86, 98, 48, 57, 65, 52, 49, 52, 48, 67, 101, 52, 56, 122, 109, 122,
   69, 55, 71, 118, 95, 97, 119, 108, 118, 48, 88, 89, 80, 84, 87, 54, 107, 118, 106, 118, 101,
   100, 79, 95, 53, 101, 115, 66, 118, 122, 98, 89, 105, 68, 83, 112, 66, 67, 113, 85, 100, 114,
   45, 67, 66, 52, 51, 85, 55, 75, 86, 122, 117, 74, 85, 68, 121, 87, 89, 77, 78, 114, 78, 53, 79,
   57, 85, 116, 111, 116, 99, 72, 120, 84, 113, 98, 95, 48, 114, 75, 121, 107, 89, 49, 111, 98,
   82, 103, 84, 70, 103, 107, 99, 66, 101, 79, 95, 121, 101, 120, 112, 52, 88, 102, 100, 85, 106,
   70, 80, 86, 109, 109, 121, 87, 56, 65, 86, 73, 67, 113, 108, 70, 73, 56, 98, 77, 87, 70, 34,
   44, 32, 34, 112, 114, 105, 109, 101, 69, 120, 112, 111, 110, 101, 110, 116, 81, 34, 58, 32, 34,
   65, 70, 107, 85, 51, 98, 95, 119, 97, 68, 50, 119, 45, 66, 55, 76, 114, 109, 95, 102, 89, 103,
   67, 72, 101, 49, 116, 112, 113, 108, 73, 85, 120, 76, 69, 74, 113, 49, 95, 102, 111, 105, 112,
   104, 55, 50, 121, 78, 81, 100, 110, 88, 97, 50, 74, 88, 48, 66, 51, 109, 48, 110, 45, 52, 53,
   82, 109, 115, 119, 72, 106, 51, 122, 51, 85, 82, 56, 85, 111, 85, 49, 86, 81, 107, 108, 99,
   107, 48, 110, 119, 113, 100, 87, 111, 80, 53, 98, 55, 108, 73, 107, 81, 88, 52, 84, 77, 122,
   102, 54, 86, 84, 86, 121, 78, 89, 90, 122, 105, 114, 105, 69, 68, 120, 75, 78, 75, 121, 106,
   111, 104, 122, 118, 113, 78, 121, 98, 113, 84, 78, 84, 103, 89, 107, 48, 100, 120, 104, 51, 65,
   90, 75, 74, 83, 103, 74, 48, 50, 50, 87, 73, 75, 51, 119, 85, 122, 95, 109, 75, 101, 76, 90,
   112, 34, 44, 32, 34, 99, 114, 116, 67, 111, 101, 102, 102, 105, 99, 105, 101, 110, 116, 34, 58,
   32, 34, 65, 66, 104, 68, 78, 48, 81, 104, 89, 51, 101, 113, 87, 73, 51, 84, 65, 67, 113, 56,
   109, 119, 71, 51, 120, 110, 113, 101, 112, 117, 105, 87, 112, 57, 110, 88, 107, 117, 54, 53,
   113, 110, 86, 86, 118, 100, 48, 111, 81, 101, 69, 111, 119, 73, 68, 95, 117, 99, 76, 105, 78,
   75, 119, 50, 66, 120, 110, 85, 116, 121, 86, 78, 51, 56, 104, 65, 55, 83, 56, 70, 83, 85, 79,
   73, 105, 113, 100, 118, 114, 67, 49, 98, 67, 103, 82, 117, 65, 97, 98, 71, 122, 52, 52, 55, 71,
   65, 113, 105, 72, 87, 117, 85, 90, 106, 79, 70, 57, 115, 98, 70, 50, 102, 104, 110, 55, 102,
   110, 118, 80, 107, 117, 105, 89, 71, 100, 108, 108, 119, 73, 76, 102, 75, 57, 51, 84, 75, 79,
   105, 116, 52, 80, 75, 57, 83, 114, 103, 85, 84, 115, 112, 65, 72, 76, 106, 105, 82, 120, 48,
   119, 66, 52, 98, 34, 44, 32, 34, 112, 114, 105, 118, 97, 116, 101, 69, 120, 112, 111, 110, 101,
   110, 116, 34, 58, 32, 34, 65, 68, 76, 117, 67, 52, 109, 55, 100, 69, 97, 98, 77, 88, 101, 90,
   83, 45, 75, 81, 99, 87, 88, 98, 87, 114, 83, 90, 73, 66, 108, 115, 54, 89, 57, 66, 100, 45, 50,
   101, 105, 87, 50, 72, 89, 74, 110, 95, 108, 101, 68, 119, 118, 85, 71, 51, 114, 55, 77, 90, 74,
   74, 57, 100, 48, 112, 85, 117, 122, 54, 102, 86, 85, 118, 79, 118, 51, 88, 67, 73, 103, 101,
   69, 76, 116, 70, 102, 50, 106, 98, 76, 83, 77, 110, 118, 114, 57, 112, 57, 74, 76, 85, 102, 78,
   89, 106, 108, 113, 54, 106, 73, 111, 55, 119, 108, 76, 80, 66, 65, 112, 112, 74, 77, 83, 121,
   87, 108, 78, 95, 89, 50, 90, 71, 45, 71, 57, 112, 99, 85, 102, 67, 121, 72, 54, 73, 83, 86, 77,
   51, 103, 102, 86, 78, 70, 116, 108, 90, 83, 80, 118, 101, 109, 106, 103, 111, 107, 70, 117, 84,
   115, 100, 115, 67, 79, 69, 67, 89, 112, 53, 48, 104, 79, 122, 115, 77, 107, 118, 88, 105, 109,
   104, 70, 56, 49, 118, 120, 95, 76, 104, 86, 48, 79, 80, 57, 99, 114, 81, 66, 111, 115, 80, 73,
   48, 75, 79, 68, 121, 90, 107, 100, 74, 67, 99, 48, 75, 66, 65, 89, 118, 104, 51, 86, 72, 106,
   85, 100, 103, 109, 53, 108, 52, 82, 117, 54, 120, 105, 73, 48, 95, 117, 103, 49, 117, 102, 86,
   119, 71, 116, 97, 49, 97, 52, 102, 81, 112, 74, 69, 99, 75, 95, 78, 103, 89, 121, 56, 103, 122,
   112, 74, 88, 108, 50, 69, 110, 52, 97, 99, 103, 103, 75, 104, 81, 90, 119, 105, 101, 71, 57,
   86, 76, 56, 100, 77, 67, 75, 122, 81, 68, 84, 95, 54, 98, 106, 65, 84, 122, 95, 69, 75, 109,
   54, 80, 107, 101, 73, 49, 51, 69, 76, 104, 52, 87, 56, 81, 109, 49, 118, 116, 97, 78, 99, 53,
   69, 34, 44, 32, 34, 112, 117, 98, 108, 105, 99, 75, 101, 121, 34, 58, 32, 123, 34, 112, 117,
   98, 108, 105, 99, 69, 120, 112, 111, 110, 101, 110, 116, 34, 58, 32, 34, 65, 65, 69, 65, 65,
   81, 34, 44, 32, 34, 109, 111, 100, 117, 108, 117, 115, 34, 58, 32, 34, 65, 76, 98, 97, 81, 77,
   111, 77, 88, 112, 118, 106, 68, 103, 107, 83, 66, 121, 50, 121, 73, 117, 121, 57, 117, 112,
   116, 106, 71, 119, 118, 118, 85, 121, 113, 108, 45, 118, 54, 97, 112, 90, 109, 105, 80, 68, 89,
   120, 84, 115, 118, 73, 78, 115, 107, 81, 52, 73, 112, 90, 66, 99, 72, 83, 105, 69, 49, 118, 68,
   109, 48, 82, 72, 117, 86, 80, 74, 66, 113, 115, 97, 55, 113, 69, 104, 88, 78, 110, 109, 50, 70,
   51, 115, 54, 53, 112, 113, 114, 105, 53, 118, 118, 56, 53, 86, 80, 70, 75, 87, 102, 55, 65, 55,
   51, 82, 90, 102, 111, 84, 99, 119, 78, 69, 67, 99, 110, 67, 85, 77, 87, 112, 55, 89, 80, 75,
   121, 120, 110, 82, 52, 75, 102, 109, 102, 89, 49, 53, 77, 117, 49, 71, 86, 77, 89, 79, 111, 75,
   76, 55, 76, 113, 111, 78, 66, 70, 114, 104, 109, 85, 119, 120, 99, 66, 71, 74, 87, 70, 57, 110,
   118, 88, 49, 82, 68, 54, 106, 72, 88, 75, 119, 45, 73, 48, 69, 56, 120, 68, 82, 95, 110, 57,
   78, 89, 73, 48, 72, 97, 77, 80, 121, 73, 54, 55, 106, 76, 117, 89, 78, 106, 53, 86, 49, 81,
   108, 49, 70, 73, 80, 110, 105, 118, 77, 115, 122, 79, 48, 65, 99, 122, 89, 55, 118, 81, 51, 57,
   101, 121, 122, 50, 102, 84, 98, 85, 76, 114, 72, 116, 121, 111, 81, 65, 119, 56, 69, 103, 86,
   65, 51, 52, 112, 101, 109, 55, 115, 106, 76, 48, 73, 45, 98, 99, 101, 120, 67, 116, 65, 105,
   90, 116, 89, 54, 80, 67, 82, 67, 66, 120, 54, 80, 75, 77, 66, 69, 48, 105, 122, 114, 70, 106,
   111, 104, 76, 99, 70, 104, 76, 119, 65, 57, 101, 98, 50, 119, 66, 76, 100, 49, 71, 51, 113, 65,
   100, 54, 89, 100, 71, 73, 90, 104, 97, 85, 80, 99, 34, 44, 32, 34, 115, 105, 122, 101, 34, 58,
   32, 50, 48, 52, 56, 125, 44, 32, 34, 112, 114, 105, 109, 101, 81, 34, 58, 32, 34, 65, 77, 98,
   113, 68, 57, 106, 69, 116, 81, 56, 72, 120, 49, 90, 52, 113, 71, 103, 88, 76, 115, 50, 100,
   105, 112, 57, 122, 55, 48, 107, 115, 71, 49, 87, 69, 83, 85, 102, 113, 89, 117, 50, 56, 103,
   85, 108, 84, 89, 52, 120, 49, 78, 67, 104, 75, 82, 65, 121, 78, 66, 113, 73, 54, 49, 74, 112,
   76, 53, 121, 79, 83, 99, 52, 45, 90, 86, 50, 112, 80, 66, 79, 65, 108, 78, 88, 76, 83, 45, 107,
   69, 74, 101, 51, 101, 101, 69, 67, 49, 116, 113, 78, 53, 108, 84, 115, 88, 85, 68, 119, 115,
   49, 106, 86, 112, 86, 101, 121, 88, 78, 57, 103, 114, 78, 86, 79, 50, 72, 89, 72, 51, 66, 111,
   106, 104, 81, 50, 113, 49, 87, 66, 117, 111, 78, 95, 107, 78, 45, 103, 107, 70, 78, 103, 117,
   75, 71, 115, 70, 68, 53, 90, 98, 106, 76, 75, 83, 77, 49, 67, 75, 49, 57, 34, 44, 32, 34, 112,
   114, 105, 109, 101, 80, 34, 58, 32, 34, 65, 79, 116, 85, 75, 72, 98, 71, 108, 50, 112, 121,
   114, 70, 79, 111, 52, 52, 68, 114, 68, 84, 68, 65, 86, 67, 99, 68, 81, 70, 70, 83, 89, 104, 71,
   97, 98, 55, 45, 105, 82, 67, 98, 70, 118, 101, 74, 112, 119, 67, 68, 79, 110, 89, 108, 78, 102,
   66, 113, 104, 79, 89, 79, 84, 88, 108, 118, 100, 89, 51, 82, 97, 79, 85, 102, 69, 85, 122, 45,
   106, 119, 77, 95, 90, 90, 71, 65, 102, 95, 109, 115, 71, 103, 55, 115, 52, 73, 104, 86, 68, 50,
   84, 112, 119, 117, 106, 45, 80, 90, 99, 103, 54, 100, 112, 103, 102, 77, 69, 113, 83, 113, 115,
   107, 68, 65, 119, 50, 100, 51, 69, 109, 101, 115, 109, 105, 88, 119, 88, 114, 82, 53, 105, 72,
   81, 72, 50, 110, 110, 107, 102, 68, 78, 55, 65, 113, 51, 75, 110, 118, 72, 122, 86, 75, 95,
   113, 104, 108, 73, 84, 100, 75, 68, 34, 44, 32, 34, 115, 105, 122, 101, 34, 58, 32, 50, 48, 52,
   56, 125]

/-- testdata/dsa/2.out: a signature of version 2 -/
def dsaOut2 : Bytes :=
  [65, 72, 84, 45, 82, 71, 48, 119, 76, 81, 73, 86, 65, 73, 80, 80, 53, 111, 54, 77, 119, 116,
   119, 98, 122, 70, 86, 87, 89, 117, 101, 56, 116, 55, 116, 108, 101, 98, 79, 67, 65, 104, 82,
   76, 99, 115, 78, 67, 113, 116, 53, 101, 67, 107, 50, 55, 78, 113, 71, 99, 104, 80, 80, 95, 48,
   65, 80, 114, 102, 65]

/-- testdata/rsa-sign/2.out: a signature of version 2 -/
def rsaSignOut2 : Bytes :=
  [65, 75, 52, 65, 84, 87, 83, 71, 82, 86, 121, 100, 70, 95, 70, 51, 97, 75, 116, 75, 119, 84,
   117, 81, 54, 106, 115, 117, 45, 116, 89, 89, 57, 118, 71, 97, 73, 111, 69, 95, 102, 65, 115,
   54, 49, 108, 99, 81, 99, 108, 50, 110, 88, 78, 115, 99, 111, 82, 82, 54, 85, 73, 87, 112, 112,
   97, 48, 110, 54, 112, 50, 105, 49, 75, 106, 117, 89, 89, 100, 52, 113, 87, 103, 57, 122, 84,
   80, 101, 101, 99, 120, 122, 69, 73, 99, 100, 88, 103, 99, 51, 54, 114, 84, 52, 52, 72, 66, 89,
   122, 88, 75, 70, 71, 108, 84, 48, 90, 110, 78, 122, 69, 97, 112, 114, 122, 113, 69, 50, 116,
   72, 102, 83, 52, 51, 85, 71, 87, 87, 79, 111, 83, 57, 50, 97, 80, 122, 120, 97, 80, 103, 116,
   89, 51, 67, 51, 99, 112, 54, 89, 117, 48, 78, 105, 100, 65, 90, 111, 45, 115, 83, 107, 73, 75,
   73, 45, 103, 76, 88, 80, 97, 73, 79, 74, 52, 120, 119, 115, 51, 82, 104, 52, 102, 70, 45, 88,
   122, 51, 56, 100, 52, 85, 122, 99, 115, 114, 69, 72, 84, 103, 45, 48, 89, 102, 49, 99, 74, 56,
   72, 76, 88, 85, 106, 107, 66, 76, 110, 98, 68, 122, 90, 113, 95, 67, 122, 74, 108, 110, 45,
   120, 57, 121, 52, 108, 69, 89, 68, 87, 105, 102, 80, 67, 48, 52, 80, 87, 51, 83, 54, 48, 71,
   111, 57, 75, 98, 120, 118, 51, 117, 105, 115, 65, 45, 57, 86, 79, 107, 86, 85, 80, 78, 70, 55,
   67, 115, 66, 82, 49, 50, 75, 55, 78, 51, 114, 119, 81, 122, 73, 116, 77, 109, 99, 52, 119, 95,
   73, 114, 48, 106, 52, 56, 45, 71, 109, 76, 82, 108, 79, 83, 73, 55, 103, 56, 119, 79, 65, 95,
   54, 116, 72, 65, 57, 106, 49, 48, 56, 106, 102, 78, 104, 69, 111, 45, 111, 99, 81, 66, 99, 115]

/-- a disk with: "d" testdata/dsa; "p" testdata/dsa.public; "r" testdata/rsa-sign; "x" an empty
directory; "h" testdata/hmac -/
def disk2 : FS := fun l =>
  if l = [100] then some (dir2 dsaMeta dsaKey1 dsaKey2)
  else if l = [112] then some (dir2 dsaPubMeta dsaPubKey1 dsaPubKey2)
  else if l = [114] then some (dir2 rsaSignMeta rsaSignKey1 rsaSignKey2)
  else if l = [120] then some fun _ => none
  else if l = [104] then some (dir2 (hmacMeta .ACTIVE .PRIMARY) hmacKey1 hmacKey2)
  else none

end Verif.Ex
