import Verif.Helpers

/-!
# fastkml/base.py and the constructors
-/

namespace Verif

variable {C F : Type} [DecidableEq C] [PyExt F]

/-! ## Constructors -/

/-- Keep the truthy members of a list (fastkml/data.py:692, fastkml/gx.py:507). -/
def keepTruthy (L : Lib C) : List (Val C F) → Except Err (List (Val C F))
  | [] => .ok []
  | v :: vs => match truthy L v with
    | .error e => .error e
    | .ok b => match keepTruthy L vs with
      | .error e => .error e
      | .ok r => .ok (if b then v :: r else r)

/-- Store a constructor argument (see `Norm`). -/
def normalise (L : Lib C) (n : Norm) (v : Val C F) : Except Err (Val C F) :=
  match n, v with
  | .raw, v => .ok v
  | .clean, .none => .ok .none
  | .clean, .str s => .ok (match cleanString (some s) with | none => .none | some t => .str t)
  | .clean, _ => .error .illTyped
  | .orEmpty, .none => .ok (.str [])
  | .orEmpty, .str s => .ok (.str s)
  | .orEmpty, _ => .error .illTyped
  | .orNone, v => match truthy L v with
    | .error e => .error e
    | .ok b => .ok (if b then v else .none)
  | .listOr, .none => .ok (.list [])
  | .listOr, .list l => .ok (.list l)
  | .listOr, _ => .error .illTyped
  | .listNotNone, .none => .ok (.list [])
  | .listNotNone, .list l => .ok (.list l)
  | .listNotNone, _ => .error .illTyped
  | .listTruthy, .none => .ok (.list [])
  | .listTruthy, .list l => match keepTruthy L l with
    | .error e => .error e
    | .ok l => .ok (.list l)
  | .listTruthy, _ => .error .illTyped
  | .coordsOr, .none => .ok (.coords [])
  | .coordsOr, .coords l => .ok (.coords l)
  | .coordsOr, _ => .error .illTyped

/-- `kwargs[a]` or the parameter default `None`. -/
def kwGet (a : Str) (kw : List (Str × Val C F)) : Val C F := (dget a kw).getD .none

/-- Fill the slots of the constructor from the keyword arguments. -/
def fillSlots (L : Lib C) (kw : List (Str × Val C F)) :
    List (Str × Norm) → Except Err (List (Str × Val C F))
  | [] => .ok []
  | (a, n) :: r => match normalise L n (kwGet a kw) with
    | .error e => .error e
    | .ok v => match fillSlots L kw r with
      | .error e => .error e
      | .ok vs => .ok ((a, v) :: vs)

/-- `Angle(*angle)` (fastkml/gx.py:137-139, 262). -/
def mkAngle : List F → Except Err (F × F × F)
  | [] => .ok (PyExt.ofDec 0 1, PyExt.ofDec 0 1, PyExt.ofDec 0 1)
  | [a] => .ok (a, PyExt.ofDec 0 1, PyExt.ofDec 0 1)
  | [a, b] => .ok (a, b, PyExt.ofDec 0 1)
  | [a, b, c] => .ok (a, b, c)
  | _ => .error .typeError

/-- One `TrackItem(when=when, coord=geo.Point(*coord), angle=Angle(*angle))`
(fastkml/gx.py:259-263). -/
def mkTrackItem (w : Option KmlDateTime) (c a : Pt F) : Except Err (TrackItem F) :=
  match mkPoint c with
  | .error _ => .error .typeError
  | .ok p => match mkAngle a with
    | .error e => .error e
    | .ok ang => .ok ⟨w, p, some ang⟩

/-- The items made from coordinates and angles once the whens are used up. -/
def zipItems2 : List (Pt F) → List (Pt F) → Except Err (List (TrackItem F))
  | [], [] => .ok []
  | [], _ :: _ => .error .typeError
  | c :: cs, as => match mkTrackItem none c (as.headD []), zipItems2 cs as.tail with
    | .error e, _ => .error e
    | _, .error e => .error e
    | .ok i, .ok is => .ok (i :: is)

/-- The list comprehension over `zip_longest(whens, coords, angles, fillvalue=())`
(fastkml/gx.py:258-270).  A missing coordinate makes `geo.Point()` raise
`TypeError`. -/
def zipItems : List (Option KmlDateTime) → List (Pt F) → List (Pt F) →
    Except Err (List (TrackItem F))
  | [], cs, as => zipItems2 cs as
  | w :: ws, cs, as => match mkTrackItem w (cs.headD []) (as.headD []),
      zipItems ws cs.tail as.tail with
    | .error e, _ => .error e
    | _, .error e => .error e
    | .ok i, .ok is => .ok (i :: is)

/-- The track items of a `Track` constructor call (fastkml/gx.py:253-271). -/
def trackItems (kw : List (Str × Val C F)) : Except Err (List (TrackItem F)) :=
  match kwGet (s% "track_items") kw, kwGet (s% "whens") kw, kwGet (s% "coords") kw,
      kwGet (s% "angles") kw with
  | ti, ws, cs, as =>
    let til : Except Err (List (TrackItem F)) := match ti with
      | .none => .ok []
      | .items l => .ok l
      | _ => .error .illTyped
    let wsl : Except Err (List (Option KmlDateTime)) := match ws with
      | .none => .ok []
      | .whens l => .ok l
      | _ => .error .illTyped
    let csl : Except Err (List (Pt F)) := match cs with
      | .none => .ok []
      | .coords l => .ok l
      | _ => .error .illTyped
    let asl : Except Err (List (Pt F)) := match as with
      | .none => .ok []
      | .coords l => .ok l
      | _ => .error .illTyped
    match til, wsl, csl, asl with
    | .ok ti, .ok ws, .ok cs, .ok as =>
      if (ws ≠ [] ∨ cs ≠ []) ∧ ti ≠ [] then .error .valueError
      else if ti = [] ∧ ws ≠ [] ∧ cs ≠ [] then zipItems ws cs as
      else .ok ti
    | _, _, _, _ => .error .illTyped

/-- The keyword arguments that a constructor with special treatment consumes
besides its slots. -/
def specialArgs : Special → List Str
  | .track => [s% "track_items", s% "whens", s% "coords", s% "angles"]
  | _ => []

/-- The checks and attributes of the constructors with special treatment. -/
def specialInit (L : Lib C) (s : Special) (kw : List (Str × Val C F)) :
    Except Err (List (Str × Val C F)) :=
  match s with
  | .schema =>
    -- fastkml/data.py:246-248: `if not id: raise KMLSchemaError`
    match kwGet (s% "id") kw with
    | .none => .error .schemaError
    | .str t => if t.isEmpty then .error .schemaError else .ok []
    | _ => .error .illTyped
  | .track => match trackItems kw with
    | .error e => .error e
    | .ok l => .ok [(s% "track_items", .items l)]
  | .placemark =>
    -- fastkml/features.py:604: `if kml_geometry and geometry` evaluates
    -- `bool(kml_geometry)`; `geometry` is `None` here
    match truthy L (kwGet (s% "kml_geometry") kw) with
    | .error e => .error e
    | .ok _ => .ok []
  | .kml => .ok []
  | .none => .ok []

/-- `cls(ns=ns, name_spaces=nss, **kw)` for the registered arguments; further
arguments are set as attributes by `_XMLObject.__init__` (fastkml/base.py:81-88)
if the constructor accepts `**kwargs`.  `ns` is not `None` here. -/
def construct (L : Lib C) (c : C) (ns : Str) (nss : NsMap) (kw : List (Str × Val C F)) :
    Except Err (Val C F) :=
  let i := L.info c
  let known := specialArgs i.special ++ i.slots.map Prod.fst
  let extras := kw.filter fun p => decide (p.1 ∉ known)
  if extras ≠ [] ∧ i.kwargs = false then .error .typeError
  else match specialInit L i.special kw with
    | .error e => .error e
    | .ok sp => match fillSlots L kw i.slots with
      | .error e => .error e
      | .ok sl => .ok (.obj c ns (mergeNs nss) (extras ++ sp ++ sl))

/-- `cls(ns=None or ns, ...)`: the namespace defaults to that of the class
(fastkml/base.py:83-85). -/
def init (L : Lib C) (c : C) (ns : Option Str) (nss : NsMap) (kw : List (Str × Val C F)) :
    Except Err (Val C F) :=
  construct L c (ns.getD (nsGet (mergeNs nss) (L.info c).nsid)) nss kw

/-! ## Attribute access for writing -/

/-- `Track.whens` (fastkml/gx.py:318-329). -/
def trackWhens (l : List (TrackItem F)) : List (Option KmlDateTime) := l.map (·.when_)

/-- `Track.coords` (fastkml/gx.py:331-346): items with an empty (NaN) point are
skipped. -/
def trackCoords (l : List (TrackItem F)) : List (Pt F) :=
  (l.filter fun i => !ptEmpty i.coord).map (·.coord)

/-- `Track.angles` (fastkml/gx.py:348-359): items without angle are skipped. -/
def trackAngles (l : List (TrackItem F)) : List (Pt F) :=
  l.filterMap fun i => i.angle.map fun a => [a.1, a.2.1, a.2.2]

/-- A computed property value. -/
def SView.prop (v : Val C F) : SView C F := ⟨v, .error .illTyped, .error .illTyped, []⟩

/-- A missing attribute: `getattr(obj, attr_name, None)` is `None`. -/
def SView.missing : SView C F := ⟨.none, .ok false, .error .illTyped, []⟩

/-- The stored track items. -/
def storedItems (attrs : List (Str × SView C F)) : List (TrackItem F) :=
  match dget (s% "track_items") attrs with
  | some sv => match sv.v with
    | .items l => l
    | _ => []
  | none => []

/-- `getattr(obj, attr_name, None)`: `gx.Track` has properties `whens`, `coords`
and `angles`. -/
def getattr (sp : Special) (attrs : List (Str × SView C F)) (a : Str) : SView C F :=
  if sp = .track ∧ a = s% "whens" then .prop (.whens (trackWhens (storedItems attrs)))
  else if sp = .track ∧ a = s% "coords" then .prop (.coords (trackCoords (storedItems attrs)))
  else if sp = .track ∧ a = s% "angles" then .prop (.coords (trackAngles (storedItems attrs)))
  else (dget a attrs).getD .missing

/-! ## `etree_element` -/

/-- The loop over the registry items (fastkml/base.py:173-182). -/
def setAll (ns : Str) (nss : NsMap) (o : Opts) (sp : Special) (attrs : List (Str × SView C F)) :
    List (Item C) → Xml → Except Err Xml
  | [], el => .ok el
  | it :: its, el => match setElement it ns nss o (getattr sp attrs it.attr) el with
    | .error e => .error e
    | .ok el => setAll ns nss o sp attrs its el

/-- `config.KMLNS[1:-1]` (fastkml/config.py:50, fastkml/kml.py:178). -/
def kmlUri : Str := s% "http://www.opengis.net/kml/2.2"

/-- `etree_element` of an object (fastkml/base.py:137-183), overridden in `KML`
(fastkml/kml.py:155-197; the `nsmap` only affects prefixes). -/
def serStep (L : Lib C) (o : Opts) (c : C) (ns : Str) (nss : NsMap)
    (attrs : List (Str × SView C F)) : Except Err Xml :=
  let i := L.info c
  let root := Xml.new (ns ++ i.tag)
  if i.special = .kml then
    let root := if ns = [] then root.setAttr (s% "xmlns") kmlUri else root
    setXmlSubList (getattr i.special attrs (s% "features")) root
  else setAll ns nss o i.special attrs (L.itemsOf c) root

mutual
/-- `v.etree_element(precision, verbosity)`; values that are not KML objects have
no such method. -/
def ser (L : Lib C) (o : Opts) : Val C F → Except Err Xml
  | .obj c ns nss attrs => serStep L o c ns nss (serAttrs L o attrs)
  | .none => .error .illTyped
  | .str _ => .error .illTyped
  | .bool _ => .error .illTyped
  | .int _ => .error .illTyped
  | .float _ => .error .illTyped
  | .enum _ _ => .error .illTyped
  | .dt _ => .error .illTyped
  | .floats _ => .error .illTyped
  | .coords _ => .error .illTyped
  | .whens _ => .error .illTyped
  | .items _ => .error .illTyped
  | .list _ => .error .illTyped
termination_by structural v => v

/-- The members of a list value. -/
def serMembers (L : Lib C) (o : Opts) : Val C F → List (Except Err Bool × Except Err Xml)
  | .list l => serList L o l
  | _ => []
termination_by structural v => v

/-- The attributes of an object, prepared for writing. -/
def serAttrs (L : Lib C) (o : Opts) : List (Str × Val C F) → List (Str × SView C F)
  | [] => []
  | (a, v) :: r => (a, ⟨v, truthy L v, ser L o v, serMembers L o v⟩) :: serAttrs L o r
termination_by structural l => l

/-- The members of a list. -/
def serList (L : Lib C) (o : Opts) : List (Val C F) → List (Except Err Bool × Except Err Xml)
  | [] => []
  | v :: r => (truthy L v, ser L o v) :: serList L o r
termination_by structural l => l
end

/-! ## `_get_kwargs` and `class_from_element` -/

/-- The inner loop over `item.ns_ids` (fastkml/base.py:356-370). -/
def tryNs (L : Lib C) (it : Item C) (strict : Bool) (nss : NsMap) (e : Xml)
    (kids : List (Kid C F)) : List Str → Except Err (Option (Val C F))
  | [] => .ok none
  | id :: ids => match getKwarg L it strict (nsGet nss id) nss e kids with
    | .error e => .error e
    | .ok (some v) => .ok (some v)
    | .ok none => tryNs L it strict nss e kids ids

/-- The outer loop over the registry items (fastkml/base.py:355-371). -/
def getKwargs (L : Lib C) (strict : Bool) (nss : NsMap) (e : Xml) (kids : List (Kid C F)) :
    List (Item C) → List (Str × Val C F) → Except Err (List (Str × Val C F))
  | [], kw => .ok kw
  | it :: its, kw => match tryNs L it strict nss e kids it.nsIds with
    | .error e => .error e
    | .ok none => getKwargs L strict nss e kids its kw
    | .ok (some v) => getKwargs L strict nss e kids its (dset it.attr v kw)

/-- `class_from_element` (fastkml/base.py:373-410), given its results for the
children. -/
def parseStep (L : Lib C) (strict : Bool) (e : Xml) (kids : List (Kid C F)) (c : C) (ns : Str)
    (nss : NsMap) : Except Err (Val C F) :=
  match getKwargs L strict (mergeNs nss) e kids (L.itemsOf c) [] with
  | .error e => .error e
  | .ok kw => construct L c ns (mergeNs nss) kw

mutual
/-- `cls.class_from_element(ns=ns, name_spaces=nss, element=e, strict=strict)`. -/
def parse (L : Lib C) (strict : Bool) : Xml → C → Str → NsMap → Except Err (Val C F)
  | .mk tag attrs text kids => fun c ns nss =>
    parseStep L strict (.mk tag attrs text kids) (parseKids L strict kids) c ns nss
termination_by structural e => e

/-- The children. -/
def parseKids (L : Lib C) (strict : Bool) : List Xml → List (Kid C F)
  | [] => []
  | k :: ks => ⟨k.tag, parse L strict k⟩ :: parseKids L strict ks
termination_by structural l => l
end

/-- `cls.from_string(string, ns=ns, name_spaces=nss, strict=strict)`
(fastkml/base.py:412-452), given the element that `etree.fromstring` returns. -/
def fromElement (L : Lib C) (strict : Bool) (c : C) (ns : Option Str) (nss : NsMap) (e : Xml) :
    Except Err (Val C F) :=
  parse L strict e c (ns.getD (nsGet (mergeNs nss) (L.info c).nsid)) (mergeNs nss)

end Verif
