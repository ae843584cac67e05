import Verif.Model.Base64
/-
The deprecated names in util.py.  `warnings.warn` returns, as with the default filters; with a filter that turns
DeprecationWarning into an exception both raise it.
-/
namespace Verif

/-- util.py:339-341 `Encode` -/
def Encode (s : Bytes) : Bytes := Base64WSEncode s

/-- util.py:360-362 `Decode` -/
def Decode (s : Bytes) : Py Bytes := Base64WSDecode s

end Verif
