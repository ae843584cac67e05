/-
Runs the model on the recorded key sets and outputs in /repo (written by the Python, Java and C++ programs) and prints
what it makes of them.  Copy to a .lean file and run `lake env lean --run FILE` in /verif/lean.
-/
import Verif.Model.Aes
import Verif.Model.Keyczart
import Verif.Model.Session
import Verif.Model.Streams
open Verif

def bytesOf (b : ByteArray) : Bytes := b.toList
def text (b : Bytes) : String := String.ofList (b.map fun c => Char.ofNat c.toNat)

def readDir (p : String) : IO Dir := do
  let mut l : List (FileName × Bytes) := []
  for e in ← System.FilePath.readDir p do
    if ← e.path.isDir then continue
    let b := bytesOf (← IO.FS.readBinFile e.path)
    let f := if e.fileName = "meta" then .metaFile else
      match e.fileName.toInt? with
      | some n => .key n
      | none => .other (bstr e.fileName)
    l := (f, b) :: l
  let l' := l
  return fun f => (l'.find? fun p => p.1 = f).map Prod.snd

def msg : Bytes := bstr "This is some test data"

def err {α} [ToString α] : Py α → String
  | .ok a => toString a
  | .error e => s!"error {repr e}"

/-- recorded ciphertext -/
def crypt (dir : String) (crypterDir : Option String := none) (outs : List String := ["1.out", "2.out"])
    (dec : Option (Bytes → Py Bytes) := some Base64WSDecode) : IO Unit := do
  let d ← readDir dir
  let cr ← match crypterDir with
    | none => pure none
    | some x => match Czar.init realPrims .crypter (FileReader (← readDir x)) with
      | .ok c => pure (some c)
      | .error e => do IO.println s!"crypter: {repr e}"; pure none
  match Czar.init realPrims .crypter (readerFor realPrims cr (FileReader d)) with
  | .error e => IO.println s!"{dir}: load {repr e}"
  | .ok c =>
    for o in outs do
      match d (.other (bstr o)) with
      | none => IO.println s!"{dir}/{o}: missing"
      | some ct => IO.println s!"{dir}/{o}: {err ((c.Decrypt realPrims ct dec).map text)}"

def sign (dir : String) (data : Option String := none) (outs : List String := ["1.out", "2.out"]) (m : Bytes := msg) : IO Unit := do
  let d ← readDir dir
  let o ← readDir (data.getD dir)
  for cls in [CzarClass.signer, .verifier] do
    match Czar.init realPrims cls (FileReader d) with
    | .error e => IO.println s!"{dir}: load {repr e}"
    | .ok c =>
      for f in outs do
        match o (.other (bstr f)) with
        | none => IO.println s!"{dir}/{f}: missing"
        | some s => IO.println s!"{dir}/{f}: {err (c.Verify realPrims m s (some Base64WSDecode))}, other data {err (c.Verify realPrims (m ++ [0]) s (some Base64WSDecode))}"

def main : IO Unit := do
  for b in ["/repo/python/testdata", "/repo/python/jtestdata", "/repo/java/code/pytestdata", "/repo/java/code/testdata", "/repo/cpp/src/keyczar/data", "/repo/cpp/src/keyczar/data/06b"] do
    crypt (b ++ "/aes")
    crypt (b ++ "/rsa")
    crypt (b ++ "/aes-crypted") (some (b ++ "/aes"))
    sign (b ++ "/hmac")
    sign (b ++ "/dsa")
    sign (b ++ "/rsa-sign")
    if b != "/repo/java/code/pytestdata" then
      sign (b ++ "/dsa.public") (some (b ++ "/dsa"))
      sign (b ++ "/rsa-sign.public") (some (b ++ "/rsa-sign"))
  let j := "/repo/java/code/testdata"
  crypt (j ++ "/aes-noprimary") none ["1.out"]
  crypt (j ++ "/crosscomp/aes")
  crypt (j ++ "/crosscomp/rsa") none ["1.out"]
  sign (j ++ "/crosscomp/hmac") none ["1.out"] (bstr "This is not a test, this is a real string")
  sign (j ++ "/crosscomp/dsa") none ["1.out"] (bstr "This is not a test, this is a real string")
  -- sessions
  let rsa ← readDir (j ++ "/rsa")
  match Czar.init realPrims .crypter (FileReader rsa), rsa (.other (bstr "session.material.out")), rsa (.other (bstr "session.ciphertext.out")) with
  | .ok c, some mat, some ct =>
    IO.println s!"session: {err ((do SessionDecrypter.Decrypt realPrims (← SessionDecrypter.new realPrims 100000 c mat) ct (some Base64WSDecode)).map text)}"
  | _, _, _ => IO.println "session: not loaded"
  let ss ← readDir (j ++ "/signedsession")
  match Czar.init realPrims .crypter (FileReader rsa), Czar.init realPrims .verifier (FileReader (← readDir (j ++ "/dsa.public"))),
      ss (.other (bstr "signed.session.out")), ss (.other (bstr "signed.ciphertext.out")) with
  | .ok c, .ok v, some mat, some ct =>
    IO.println s!"signed session: {err ((do SignedSessionDecrypter.Decrypt realPrims (← SignedSessionDecrypter.new realPrims c mat) v ct).map fun (o : Option Bytes) => (o.map text).getD "None")}"
  | _, _, _, _ => IO.println "signed session: not loaded"
