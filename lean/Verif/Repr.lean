import Verif.ReprTable
import Verif.Eq

/-!
# `__repr__`, and evaluating what it prints

`repr(obj)` is modelled as the expression that the printed text is, not as the text:
literals, tuples and lists, members of enumerations, and calls of `KmlDateTime` and
`TrackItem` are values, and the calls of the constructors of fastkml and
pygeoif are nodes.  Python's own `repr` of text, numbers, times and dictionaries is
taken to print an expression for the value, and the names in the expression to be in
scope.
-/

namespace Verif

variable {F : Type} [PyExt F]

/-- What a printed text stands for. -/
inductive PExpr (F : Type) where
  /-- an expression for the value -/
  | lit (v : Val Cls F)
  /-- a call of a constructor of pygeoif, e.g. `LineString(((0.0, 0.0), (1.0, 1.0)))` -/
  | geo (g : Geo F)
  /-- no expression, or one for something else: `<AltitudeMode.absolute: 'absolute'>`, or
  a text without its quotes -/
  | junk
  | list (l : List (PExpr F))
  /-- `fastkml.….C(ns=…, name_spaces=…, k=…, …)` -/
  | call (c : Cls) (ns : Str) (nss : NsMap) (kw : List (Str × PExpr F))

/-- `f"{x}"` and `f"{x!r}"`, given `repr(x)`.  `str` of an enumeration member prints
the member (the enumerations derive from `RelaxedEnum`, a plain `Enum`:
fastkml/enums.py:48); `str` of text, of a time (fastkml/times.py:183-195) and of an
object (fastkml/base.py:108-118) is no expression for it. -/
def printed (conv : Conv) (v : Val Cls F) (r : Except Err (PExpr F)) : Except Err (PExpr F) :=
  match conv with
  | .repr => r
  | .str => match v with
    | .enum e x => .ok (.lit (.enum e x))
    | .str _ => .ok .junk
    | .dt _ => .ok .junk
    | .obj _ _ _ _ => .ok .junk
    | _ => r

/-- `self.geometry` in an f-string. -/
def printedGeometry : Except Err (Option (Geo F)) → Except Err (PExpr F)
  | .error e => .error e
  | .ok none => .ok (.lit .none)
  | .ok (some g) => .ok (.geo g)

/-- An argument in `__repr__`, given `repr` of the attributes.  Only the lines, rings
and polygons print `geometry` (fastkml/geometry.py:607-621, 1094-1116), which is a
property. -/
def reprArg (v : Val Cls F) (attrs : List (Str × Val Cls F)) (rs : List (Str × Except Err (PExpr F)))
    (a : Str) (conv : Conv) : Except Err (PExpr F) :=
  if a = s% "geometry" then printedGeometry (geometry fastkml v)
  else match dget a attrs, dget a rs with
    | some w, some r => printed conv w r
    | _, _ => .error .illTyped

/-- A keyword with its argument. -/
def withKey {α : Type} (k : Str) : Except Err α → Except Err (Str × α)
  | .error e => .error e
  | .ok a => .ok (k, a)

/-- `obj.__repr__()` (fastkml/base.py:90-106 and the methods cited in `reprFields`),
given `repr` of the attributes. -/
def reprStep (c : Cls) (ns : Str) (nss : NsMap) (attrs : List (Str × Val Cls F))
    (rs : List (Str × Except Err (PExpr F))) : Except Err (PExpr F) :=
  let v : Val Cls F := .obj c ns nss attrs
  match seqE ((reprFields c).map fun f => withKey f.1 (reprArg v attrs rs f.2.1 f.2.2)),
      seqE ((Inst.splat ⟨c, ns, nss, attrs⟩).map fun k => withKey k ((dget k rs).getD (.error .illTyped))) with
  | .error e, _ => .error e
  | _, .error e => .error e
  | .ok as, .ok xs => .ok (.call c ns nss (as ++ xs))

/-- A list of expressions. -/
def reprItems : Except Err (List (PExpr F)) → Except Err (PExpr F)
  | .error e => .error e
  | .ok l => .ok (.list l)

mutual
/-- `repr(v)`. -/
def reprOf : Val Cls F → Except Err (PExpr F)
  | .none => .ok (.lit .none)
  | .str s => .ok (.lit (.str s))
  | .bool b => .ok (.lit (.bool b))
  | .int i => .ok (.lit (.int i))
  | .float f => .ok (.lit (.float f))
  | .enum _ _ => .ok .junk
  -- fastkml/times.py:162-169
  | .dt k => .ok (.lit (.dt k))
  | .floats l => .ok (.lit (.floats l))
  | .coords l => .ok (.lit (.coords l))
  | .whens l => .ok (.lit (.whens l))
  -- dataclasses (fastkml/gx.py:127-139, 155-161)
  | .items l => .ok (.lit (.items l))
  | .obj c ns nss attrs => reprStep c ns nss attrs (reprAttrs attrs)
  | .list l => reprItems (seqE (reprList l))
termination_by structural v => v

/-- `repr` of the attributes. -/
def reprAttrs : List (Str × Val Cls F) → List (Str × Except Err (PExpr F))
  | [] => []
  | (a, v) :: r => (a, reprOf v) :: reprAttrs r
termination_by structural l => l

/-- `repr` of the members. -/
def reprList : List (Val Cls F) → List (Except Err (PExpr F))
  | [] => []
  | v :: r => reprOf v :: reprList r
termination_by structural l => l
end

/-! ## Evaluation -/

/-- The value of an argument: of this library, or a geometry of pygeoif. -/
inductive PVal (F : Type) where
  | val (v : Val Cls F)
  | geo (g : Geo F)

/-- `nan` is not a name in scope. -/
def evaluable : Val Cls F → Bool
  | .float f => !PyExt.isNaN f
  | .floats l => l.all fun f => !PyExt.isNaN f
  | .coords l => l.all fun p => p.all fun f => !PyExt.isNaN f
  | .items l => l.all fun r => (r.coord.all fun f => !PyExt.isNaN f) && match r.angle with
    | none => true
    | some a => !PyExt.isNaN a.1 && !PyExt.isNaN a.2.1 && !PyExt.isNaN a.2.2
  | _ => true

/-- `KmlDateTime(dt=…, resolution=…)` with the attributes of `k`
(fastkml/times.py:130-160, 162-169). -/
def KmlDateTime.again (k : KmlDateTime) : KmlDateTime := .mk' k.dt (some k.res)

/-- The value of an expression without calls of fastkml's XML classes. -/
def evalLit : Val Cls F → Val Cls F
  | .dt k => .dt k.again
  | .whens l => .whens (l.map fun w => w.map KmlDateTime.again)
  | .items l => .items (l.map fun r => { r with when_ := r.when_.map KmlDateTime.again })
  | v => v

/-- The rings of a polygon, made again. -/
def evalRings : List (List (Pt F)) → Except Err (List (List (Pt F)))
  | [] => .ok []
  | l :: ls => match liftGeo (mkRing l), evalRings ls with
    | .error e, _ => .error e
    | _, .error e => .error e
    | .ok r, .ok rs => .ok (r :: rs)

/-- The constructors of pygeoif, called with the coordinates of a geometry.  Only the
geometries that are printed. -/
def evalGeo : Geo F → Except Err (Geo F)
  | .point p => match liftGeo (mkPoint p) with
    | .error e => .error e
    | .ok p => .ok (.point p)
  | .lineString l => match liftGeo (mkLine l) with
    | .error e => .error e
    | .ok l => .ok (.lineString l)
  | .linearRing l => match liftGeo (mkRing l) with
    | .error e => .error e
    | .ok l => .ok (.linearRing l)
  | .polygon s hs => match liftGeo (mkRing s), evalRings hs with
    | .error e, _ => .error e
    | _, .error e => .error e
    | .ok s, .ok hs => .ok (.polygon s hs)
  | _ => .error .illTyped

/-- The argument `geometry`; without it the default `None`. -/
def geometryArg (args : List (Str × PVal F)) : Except Err (Option (Geo F)) :=
  match dget (s% "geometry") args with
  | none => .ok none
  | some (.val .none) => .ok none
  | some (.geo g) => .ok (some g)
  | some (.val _) => .error .illTyped

/-- The other arguments. -/
def otherArgs : List (Str × PVal F) → Except Err (List (Str × Val Cls F))
  | [] => .ok []
  | (k, x) :: r => match otherArgs r with
    | .error e => .error e
    | .ok kw =>
      if k = s% "geometry" then .ok kw
      else match x with
        | .val v => .ok ((k, v) :: kw)
        | .geo _ => .error .illTyped

/-- `C(ns=ns, name_spaces=nss, **args)`.  With `geometry=None` all constructors store
the other arguments. -/
def callCls (c : Cls) (ns : Str) (nss : NsMap) (args : List (Str × PVal F)) : Except Err (Val Cls F) :=
  match geometryArg args, otherArgs args with
  | .error e, _ => .error e
  | _, .error e => .error e
  | .ok none, .ok kw => init fastkml c (some ns) nss kw
  | .ok (some g), .ok kw =>
    if c = .Point ∨ c = .LineString ∨ c = .LinearRing then initCoords c (some ns) nss (some g) kw
    else if c = .Polygon then initPolygon (some ns) nss (some g) kw
    else if c = .BoundaryIs ∨ c = .OuterBoundaryIs ∨ c = .InnerBoundaryIs then
      initBoundary c (some ns) nss (some g) kw
    else if c = .MultiGeometry then makeMulti (some ns) nss (some g) kw
    else if c = .Placemark then makePlacemark (some ns) nss (some g) kw
    else .error .typeError

/-- A list of values. -/
def listOf : List (PVal F) → Except Err (PVal F)
  | [] => .ok (.val (.list []))
  | x :: xs => match x, listOf xs with
    | .val v, .ok (.val (.list l)) => .ok (.val (.list (v :: l)))
    | _, .error e => .error e
    | _, _ => .error .illTyped

mutual
/-- `eval(text)` for a printed text. -/
def evalP : PExpr F → Except Err (PVal F)
  | .lit v => if evaluable v then .ok (.val (evalLit v)) else .error .illTyped
  | .geo g => match evalGeo g with
    | .error e => .error e
    | .ok g => .ok (.geo g)
  | .junk => .error .illTyped
  | .list l => match evalList l with
    | .error e => .error e
    | .ok xs => listOf xs
  | .call c ns nss kw => match evalArgs kw with
    | .error e => .error e
    | .ok args => match callCls c ns nss args with
      | .error e => .error e
      | .ok v => .ok (.val v)
termination_by structural e => e

/-- The members of a list. -/
def evalList : List (PExpr F) → Except Err (List (PVal F))
  | [] => .ok []
  | e :: es => match evalP e, evalList es with
    | .error e, _ => .error e
    | _, .error e => .error e
    | .ok x, .ok xs => .ok (x :: xs)
termination_by structural l => l

/-- The arguments of a call. -/
def evalArgs : List (Str × PExpr F) → Except Err (List (Str × PVal F))
  | [] => .ok []
  | (k, e) :: es => match evalP e, evalArgs es with
    | .error e, _ => .error e
    | _, .error e => .error e
    | .ok x, .ok xs => .ok ((k, x) :: xs)
termination_by structural l => l
end

/-- `eval(repr(v))`. -/
def evalRepr (v : Val Cls F) : Except Err (PVal F) :=
  match reprOf v with
  | .error e => .error e
  | .ok e => evalP e

end Verif
