import Verif.Std

/-!
# Interrupted and interleaved writes

`KML.write` (fastkml/kml.py:251-290) as the sequence of its effects on the file system.  Files.lean
has its result if all goes well; here the process can be killed, or the operating system can
refuse to write more (`OSError`: the disk is full), after any number of effects, and
several processes can write at the same time.
-/

namespace Verif

/-- One effect on the file system. -/
inductive Effect where
  /-- `open(path, "w")`: the file is created, or emptied -/
  | truncate (p : Str × Str)
  /-- a part of the buffer is written -/
  | append (p : Str × Str) (b : Bytes)
  /-- `zipfile` changes an archive that is not complete (it goes back to complete headers) -/
  | replace (p : Str × Str) (b : Bytes)
  /-- the end of the central directory is written: from now on the file is an archive -/
  | archive (p : Str × Str) (members : List (Str × Bytes))
deriving DecidableEq

/-- The file that changes. -/
def Effect.path : Effect → Str × Str
  | .truncate p | .append p _ | .replace p _ | .archive p _ => p

/-- The file after the effect.  A file is not deleted while it is written; what would be
appended to something else is not. -/
def Effect.file (f : Option File) : Effect → Option File
  | .truncate _ => some (.plain [])
  | .append _ b => match f with
    | some (.plain a) => some (.plain (a ++ b))
    | f => f
  | .replace _ b => some (.plain b)
  | .archive _ l => some (.zip l)

/-- The file system after the effect. -/
def Effect.apply (fs : FS) (x : Effect) : FS := fun q => if q = x.path then x.file (fs q) else fs q

/-- The file system after some effects. -/
def effects (fs : FS) (xs : List Effect) : FS := xs.foldl Effect.apply fs

/-- What is not determined by the program: how buffers and the operating system split what is
written, and what an archive looks like before it is complete. -/
structure Io where
  split : Bytes → List Bytes
  all : ∀ b, (split b).flatten = b
  zipping : Bytes → List Bytes

variable {F : Type} [PyExt F]

/-- The effects of `KML.write(file_path, prettyprint=, precision=, verbosity=)`
(fastkml/kml.py:251-290).  The text is complete (lines 271-283) before the file is
opened (line 286 or 289). -/
def writeEffects (W : Etree) (io : Io) (p : Str × Str) (prettyprint : Bool) (o : Opts) (v : Val Cls F) : Except FErr (List Effect) :=
  match ser fastkml o v with
  | .error e => .error (.kml e)
  | .ok e =>
    let text := match W.pretty prettyprint e with
      | .error .typeError => W.tostring e
      | r => r
    match text with
    | .error x => .error x
    | .ok t =>
      if suffix p.2 = (s% ".kmz") then
        .ok (.truncate p :: ((io.zipping (utf8 t)).map (Effect.replace p) ++ [.archive p [(s% "doc.kml", utf8 t)]]))
      else .ok (.truncate p :: (io.split (utf8 t)).map (Effect.append p))

/-- The file system if `KML.write` is interrupted after `n` effects. -/
def interrupted (W : Etree) (io : Io) (fs : FS) (p : Str × Str) (prettyprint : Bool) (o : Opts) (v : Val Cls F) (n : Nat) : FS :=
  match writeEffects W io p prettyprint o v with
  | .error _ => fs
  | .ok xs => effects fs (xs.take n)

/-! ## A library that completes what is missing

`lxml`'s parser with `recover=True` (fastkml/kml.py:99-105) does not raise when the text ends too early, but
closes the elements that are open.  Which part of the last, incomplete tag or text is kept is
not modelled: here it is dropped. -/

/-- The complete tokens at the beginning of a text. -/
def Std.lexSome : Nat → Str → List Std.Tok
  | 0, _ => []
  | n + 1, s => match Std.lex (s.length + 1) s with
    | some ts => ts
    | none => Std.lexSome n (s.take (s.length - 1))

/-- Close all elements. -/
def Std.close : Std.Frame → List Std.Frame → Xml
  | f, [] => f.elem
  | f, g :: fs => Std.close { g with kids := g.kids ++ [f.elem] } fs

/-- `Std.build`, but elements that are open at the end are closed. -/
def Std.buildSome : List Std.Tok → List Std.Frame → Option Xml
  | [], [] => none
  | [], f :: fs => some (Std.close f fs)
  | .op q as b :: r, [] => match Std.frame [] [] q as with
    | some f => if b then (if r = [] then some f.elem else none) else Std.buildSome r [f]
    | none => none
  | .op q as b :: r, g :: fs => match Std.frame g.d g.env q as with
    | some f => if b then Std.buildSome r ({ g with kids := g.kids ++ [f.elem] } :: fs) else Std.buildSome r (f :: g :: fs)
    | none => none
  | _ :: _, [] => none
  | .tx s :: r, f :: fs =>
    Std.buildSome r ({ f with text := if f.text.isNone && f.kids.isEmpty then some s else f.text } :: fs)
  | .cl q :: r, [f] => if q = f.q ∧ r = [] then some f.elem else none
  | .cl q :: r, f :: g :: fs =>
    if q = f.q then Std.buildSome r ({ g with kids := g.kids ++ [f.elem] } :: fs) else none

/-- `ElementTree` with a recovering parser. -/
def recoverer (m : Prefixes) : Etree :=
  { Std.lib m with
    recovering := fun f => match f with
      | .zip _ => .error (.xml 0)
      | .plain b => match b.toByteArray.utf8Decode? with
        | some a => match Std.buildSome (Std.lexSome (a.size + 1) (Std.lineEnds false a.toList)) [] with
          | some e => .ok e
          | none => .error (.xml 0)
        | none => .error (.xml 0) }

end Verif
