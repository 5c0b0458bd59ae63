import Verif.Files
import Verif.Lxml

/-!
# Text and files with lxml

`to_string` and `KML.write`, with the element built by lxml.
-/

namespace Verif

variable {F : Type} [PyExt F]

/-- `to_string(prettyprint=, precision=, verbosity=)` (fastkml/base.py:185-230) with
lxml: `toString` with `serLxml` as `etree_element`. -/
def toStringLxml (W : Etree) (prettyprint : Bool) (o : Opts) (v : Val Cls F) : Except FErr Str :=
  match serLxml fastkml o v with
  | .error e => .error (.kml e)
  | .ok e => match W.pretty prettyprint e with
    | .error .typeError => W.tostring e
    | r => r

/-- `KML.write(file_path, prettyprint=, precision=, verbosity=)` (fastkml/kml.py:251-290)
with lxml: `kmlWrite` with `serLxml` as `etree_element`, with the same simplifications. -/
def kmlWriteLxml (W : Etree) (fs : FS) (p : Str × Str) (prettyprint : Bool) (o : Opts) (v : Val Cls F) :
    FS × Except FErr Unit :=
  match serLxml fastkml o v with
  | .error e => (fs, .error (.kml e))
  | .ok e =>
    let text := match W.pretty prettyprint e with
      | .error .typeError => W.tostring e
      | r => r
    match text with
    | .error x => (fs, .error x)
    | .ok t =>
      if suffix p.2 = (s% ".kmz") then (fs.put p (.zip [(s% "doc.kml", utf8 t)]), .ok ())
      else (fs.put p (.plain (utf8 t)), .ok ())

end Verif
