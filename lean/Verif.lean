import Verif.Model.Py
import Verif.Model.Base64
import Verif.Model.Prims
import Verif.Model.Util
import Verif.Model.Der
import Verif.Lemmas.Base64
import Verif.Lemmas.Util
import Verif.Lemmas.Der
import Verif.Spec.Encodings
import Verif.Props.Encodings
import Verif.Model.Json
import Verif.Model.KeyInfo
import Verif.Model.PyCrypto
import Verif.Model.Keys
import Verif.Lemmas.Json
import Verif.Lemmas.Cbc
import Verif.Lemmas.Arith
import Verif.Lemmas.ExampleKeys
import Verif.Spec.Crypto
import Verif.Spec.Asym
import Verif.Props.Symmetric
import Verif.Props.Asymmetric
import Verif.Lemmas.Serial
import Verif.Props.Serialisation
import Verif.Model.Keyczar
import Verif.Spec.KeySet
import Verif.Lemmas.Czar
import Verif.Lemmas.JsonWF
import Verif.Lemmas.Load
import Verif.Lemmas.Init
import Verif.Model.Sha1
import Verif.Model.Aes
import Verif.Lemmas.ExampleSets
import Verif.Spec.KeyId
import Verif.Lemmas.KeyId
import Verif.Props.Loading
import Verif.Props.Crypters
import Verif.Props.Signatures
import Verif.Props.Management
import Verif.Model.Keyczart
import Verif.Lemmas.Disk
import Verif.Lemmas.Commands
import Verif.Lemmas.ExampleDisk
import Verif.Props.Disk
import Verif.Lemmas.History
import Verif.Props.History
import Verif.Lemmas.Crash
import Verif.Props.Crash
import Verif.Lemmas.ExampleAsym
import Verif.Spec.Export
import Verif.Lemmas.Export
import Verif.Props.Export
import Verif.Spec.CommandLine
import Verif.Props.CommandLine
import Verif.Model.Session
import Verif.Lemmas.Session
import Verif.Props.Sessions
import Verif.Model.Streams
import Verif.Spec.Streams
import Verif.Lemmas.StreamsB64
import Verif.Lemmas.StreamsEnc
import Verif.Lemmas.StreamsDec
import Verif.Props.Streams
import Verif.Spec.Der
import Verif.Props.Der
import Verif.Props.DsaText
import Verif.Props.Attached
import Verif.Props.Accepts
import Verif.Props.AesText
import Verif.Props.Formats
import Verif.Model.Memoize
import Verif.Props.Memoize
import Verif.Model.Py3
import Verif.Props.Py3
import Verif.Model.M2Crypto
import Verif.Props.Libraries
import Verif.Model.KeyEq
import Verif.Props.KeyEq
import Verif.Model.Concurrent
import Verif.Props.Concurrent
import Verif.Props.Unpack
import Verif.Model.GenKey
import Verif.Lemmas.GenKey
import Verif.Spec.GenKey
import Verif.Props.GenKey
import Verif.Props.GenKeyUse
import Verif.Props.GenKeyRun
import Verif.Props.GenKeyExample
import Verif.Model.Backends
import Verif.Spec.Backends
import Verif.Props.Backends
import Verif.Model.FloatLen
import Verif.Lemmas.FloatLen
import Verif.Props.FloatLen
import Verif.Model.Mock
import Verif.Spec.Mock
import Verif.Props.Mock
import Verif.Spec.Oaep
import Verif.Props.RsaAccept
import Verif.Props.Live
import Verif.Lemmas.GoldenData
import Verif.Props.Golden
import Verif.Lemmas.Names
import Verif.Lemmas.JsonErr
import Verif.Spec.Faults
import Verif.Props.Malformed
import Verif.Props.MalformedKeys
import Verif.Model.Interop
import Verif.Spec.Interop
import Verif.Props.Interop
import Verif.Props.InteropCreate
import Verif.Props.InteropExample
import Verif.Spec.Json
import Verif.Lemmas.JsonGrammar
import Verif.Props.JsonText
import Verif.Props.InteropTest
import Verif.Model.Open
import Verif.Props.Open
import Verif.Model.Py3Tool
import Verif.Props.Py3Tool
import Verif.Spec.SessionText
import Verif.Props.SessionText
import Verif.Spec.Fips
import Verif.Lemmas.Fips
import Verif.Props.Fips
import Verif.Model.Told
import Verif.Spec.Told
import Verif.Props.Told
import Verif.Spec.Forgery
import Verif.Props.Forgery
import Verif.Spec.Leak
import Verif.Props.Leak
import Verif.Spec.Nonce
import Verif.Props.Nonce
import Verif.Spec.Tamper
import Verif.Lemmas.ExampleKeys2
import Verif.Props.Tamper
import Verif.Spec.Shadow
import Verif.Props.Shadow
import Verif.Model.Deprecated
import Verif.Props.Deprecated
import Verif.Spec.Early
import Verif.Lemmas.StreamsEarly
import Verif.Props.Early
import Verif.Spec.Recover
import Verif.Props.Recover
import Verif.Spec.Uses
import Verif.Props.Uses
import Verif.Model.Harness
import Verif.Spec.Harness
import Verif.Lemmas.Harness
import Verif.Props.Harness
import Verif.Props.HarnessCommands
import Verif.Props.Strict
import Verif.Props.Py3Strict
import Verif.Spec.EndToEnd
import Verif.Props.EndToEnd
import Verif.Props.EndToEndExcluded
import Verif.Model.HarnessMain
import Verif.Spec.HarnessMain
import Verif.Props.HarnessMain
import Verif.Model.Convert
import Verif.Spec.Convert
import Verif.Lemmas.Convert
import Verif.Props.Convert
