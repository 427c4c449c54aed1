import Verif.Model.UrlOpen
import Verif.Py.FileUrl
/-
Model of /repo/resync/url_or_file_open.py for local files.
-/

namespace Resync
open Py

/-- url_or_file_open.py 33-34, 49: the local file that `url_or_file_open(uri)` opens, `none` if `uri` denotes none.  The decoding of
bytes that are not UTF-8, which urllib does with replacement characters, is the parameter `dec`. -/
def openedFile (uw : Char → Bool) (dec : List UInt8 → Str) (uri : Str) : Option Str := fileOfUrl dec (openUrl uw uri)

end Resync
