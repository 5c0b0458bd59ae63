#!/usr/bin/env python3
"""Generate lean/Verif/Classes.lean from the text of /repo/fastkml (ast only).

usage: python3 -B tools/gen.py /repo/fastkml > lean/Verif/Classes.lean
       python3 -B tools/gen.py /repo/fastkml dict > lean/Verif/DictOrder.lean
       python3 -B tools/gen.py /repo/fastkml repr > lean/Verif/ReprTable.lean
Nothing of fastkml is imported or run.
"""
import ast
import re
import sys

root = sys.argv[1]
FILES = ["base", "kml_base", "atom", "times", "views", "links", "styles", "data",
         "geometry", "gx", "model", "features", "overlays", "containers",
         "network_link_control", "kml"]
CONFIG = {"config.KML": "kml", "config.ATOM": "atom", "config.GX": "gx"}

classes = {}   # (file, name) -> dict
order = []
regs = []
scope = {}     # file -> local name -> key


def lean_name(key):
    f, n = key
    return "atom_Link" if key == ("atom", "Link") else n


trees = {}
for f in FILES:
    src = open(f"{root}/{f}.py").read()
    trees[f] = ast.parse(src)
    sc = scope[f] = {}
    for n in trees[f].body:
        if isinstance(n, ast.ImportFrom) and n.module and n.module.startswith("fastkml."):
            m = n.module.split(".")[1]
            for a in n.names:
                sc[a.asname or a.name] = (m, a.name)
        if isinstance(n, ast.ClassDef):
            sc[n.name] = (f, n.name)


def resolve(f, node):
    if isinstance(node, ast.Name):
        return scope[f].get(node.id, (None, node.id))
    if isinstance(node, ast.Attribute) and isinstance(node.value, ast.Name):
        return (node.value.id, node.attr)
    raise Exception(ast.dump(node))


for f in FILES:
    for n in trees[f].body:
        if not isinstance(n, ast.ClassDef):
            continue
        bases = [resolve(f, b) for b in n.bases]
        bases = [b for b in bases if b in classes]
        if not bases and n.name != "_XMLObject":
            continue
        assert len(bases) <= 1
        d = dict(key=(f, n.name), base=bases[0] if bases else None, node=n,
                 line=(n.lineno, n.end_lineno), methods={}, nsid=None)
        for b in n.body:
            if isinstance(b, ast.FunctionDef):
                d["methods"].setdefault(b.name, b)
            if isinstance(b, (ast.Assign, ast.AnnAssign)) and b.value is not None:
                t = b.targets[0] if isinstance(b, ast.Assign) else b.target
                if isinstance(t, ast.Name) and t.id == "_default_nsid":
                    v = b.value
                    d["nsid"] = v.value if isinstance(v, ast.Constant) else CONFIG[ast.unparse(v)]
        classes[(f, n.name)] = d
        order.append((f, n.name))


def mro(k):
    r = []
    while k:
        r.append(k)
        k = classes[k]["base"]
    return r


def inherited(k, name):
    for c in mro(k):
        if name in classes[c]["methods"]:
            return c, classes[c]["methods"][name]
    return None, None


def body(fn):
    b = fn.body
    if isinstance(b[0], ast.Expr) and isinstance(b[0].value, ast.Constant):
        b = b[1:]
    return b


def attr_of(e):
    assert isinstance(e, ast.Attribute) and isinstance(e.value, ast.Name) and e.value.id == "self", ast.dump(e)
    return e.attr


def s(x):
    return '(s% "' + x.replace("\\", "\\\\").replace('"', '\\"') + '")'


def slist(l):
    return "[" + ", ".join(l) + "]"


def tag(k):
    c, fn = inherited(k, "get_tag_name")
    r = body(fn)[-1].value
    u = ast.unparse(r)
    where = f"fastkml/{c[0]}.py:{fn.lineno}-{fn.end_lineno}"
    if u == "cls.__name__":
        return k[1], where
    if u == "cls.__name__.lower()":
        return k[1].lower(), where
    return ast.literal_eval(r), where


def nsid(k):
    for c in mro(k):
        if classes[c]["nsid"] is not None:
            return classes[c]["nsid"]
    return ""


def not_none(e):
    return (isinstance(e, ast.Compare) and len(e.ops) == 1 and isinstance(e.ops[0], ast.IsNot)
            and isinstance(e.comparators[0], ast.Constant) and e.comparators[0].value is None)


def bool_rule(k):
    c, fn = inherited(k, "__bool__")
    if fn is None:
        return ".always", "no `__bool__`"
    where = f"fastkml/{c[0]}.py:{fn.lineno}-{fn.end_lineno}"
    e = body(fn)[-1].value
    u = ast.unparse(e)
    if u == "True":
        return ".always", where
    if u == "bool(self.geometry)":
        return ".geometry", where
    def is_bool(x):
        return isinstance(x, ast.Call) and ast.unparse(x.func) == "bool"
    if is_bool(e):
        return f".allTruthy [{s(attr_of(e.args[0]))}]", where
    if isinstance(e, ast.BoolOp):
        op = "all" if isinstance(e.op, ast.And) else "any"
        vals = e.values
    elif isinstance(e, ast.Call) and ast.unparse(e.func) in ("all", "any"):
        op = ast.unparse(e.func)
        if isinstance(e.args[0], ast.Attribute):
            assert op == "any"
            return f".anyElem {s(attr_of(e.args[0]))}", where
        vals = e.args[0].elts
    elif not_none(e):
        op, vals = "all", [e]
    else:
        raise Exception(u)
    if all(is_bool(v) for v in vals):
        return f".{op}Truthy " + slist(s(attr_of(v.args[0])) for v in vals), where
    if all(not_none(v) for v in vals):
        return f".{op}NotNone " + slist(s(attr_of(v.left)) for v in vals), where
    return f".{op}Truthy " + slist(s(attr_of(v)) for v in vals), where


# Constructor statements that only concern arguments which reading never passes
# (`geometry`, `icon_href`): with those arguments None they store the argument.
READ_PATH_RAW = {("geometry", "kml_coordinates"), ("geometry", "kml_geometry"),
                 ("geometry", "outer_boundary"), ("styles", "icon"), ("features", "kml_geometry")}


def norm(e, a):
    u = ast.unparse(e)
    if u == a:
        return ".raw"
    if u == f"clean_string({a})":
        return ".clean"
    if u == f"{a} or ''":
        return ".orEmpty"
    if u == f"{a} or None":
        return ".orNone"
    if u == f"{a} or []":
        return ".coordsOr"
    if u == f"list({a}) if {a} else []":
        return ".listOr"
    if u == f"list({a}) if {a} is not None else []":
        return ".listNotNone"
    if isinstance(e, ast.IfExp) and isinstance(e.body, ast.ListComp) and ast.unparse(e.test) == a:
        v = e.body.generators[0]
        x = v.target.id
        assert u == f"[{x} for {x} in {a} if {x}] if {a} else []", u
        return ".listTruthy"
    raise Exception(u)


def slots(k):
    """[(attr, norm)], accepts_kwargs, citations"""
    c, fn = inherited(k, "__init__")
    if c == ("base", "_XMLObject"):
        return [], True, [f"fastkml/base.py:{fn.lineno}-{fn.end_lineno}"]
    cites = [f"fastkml/{c[0]}.py:{fn.lineno}-{fn.end_lineno}"]
    params = [a.arg for a in fn.args.args + fn.args.kwonlyargs]
    kwargs = fn.args.kwarg is not None
    out = []
    for st in body(fn):
        if isinstance(st, ast.Expr) and isinstance(st.value, ast.Call):
            u = ast.unparse(st.value.func)
            if u == "super().__init__":
                b, bk, bc = slots(classes[c]["base"])
                passed = {kw.arg: ast.unparse(kw.value) for kw in st.value.keywords}
                bparams = [x[0] for x in b]
                for x in bparams:
                    assert passed.get(x) == x, (k, x, passed)
                kwargs = kwargs and bk and None in passed
                out += b
                cites += bc
            else:
                assert u in ("kwargs.pop",), u
        elif isinstance(st, (ast.Assign, ast.AnnAssign)):
            t = st.targets[0] if isinstance(st, ast.Assign) else st.target
            if isinstance(t, ast.Attribute):
                a = attr_of(t)
                if k[1] == "Track" and a == "track_items":
                    continue
                assert a in params, (k, a)
                out.append((a, norm(st.value, a)))
            else:
                assert (k[1], ast.unparse(t)) in (("Track", "angles"), ("IconStyle", "icon_href")), (k, ast.unparse(t))
        elif isinstance(st, ast.If):
            u = ast.unparse(st.test)
            tgt = {ast.unparse(x.targets[0]) for x in ast.walk(st) if isinstance(x, ast.Assign)} - {"msg"}
            for t in tgt:
                assert (c[0], t) in READ_PATH_RAW or (c[1], t) in (
                    ("Track", "track_items"), ("Polygon", "inner_boundaries"),
                    ("MultiGeometry", "kml_geometries")), (k, t)
        else:
            raise Exception(ast.unparse(st))
    return out, kwargs, cites


def before_base(k):
    """the public attributes set before `_XMLObject.__init__` runs, in order"""
    c, fn = inherited(k, "__init__")
    if c == ("base", "_XMLObject"):
        return []
    out = []
    for st in body(fn):
        if isinstance(st, ast.Expr) and isinstance(st.value, ast.Call) \
                and ast.unparse(st.value.func) == "super().__init__":
            return out + before_base(classes[c]["base"])
        for x in ast.walk(st):
            if isinstance(x, (ast.Assign, ast.AnnAssign)):
                t = x.targets[0] if isinstance(x, ast.Assign) else x.target
                if isinstance(t, ast.Attribute) and ast.unparse(t.value) == "self" \
                        and t.attr not in out:
                    out.append(t.attr)
    raise Exception(k)


def repr_fields(k):
    """[(keyword, attribute, conversion)] of the inherited `__repr__`"""
    c, fn = inherited(k, "__repr__")
    (ret,) = body(fn)
    parts = ret.value.values
    text = "".join(p.value if isinstance(p, ast.Constant) else "{" + ast.unparse(p.value) +
                   ("!r" if p.conversion == ord("r") else "") + "}" for p in parts)
    pre = "{self.__class__.__module__}.{self.__class__.__name__}(ns={self.ns!r}, name_spaces={self.name_spaces!r}, "
    post = "**{self._get_splat()!r},)"
    text = text.replace("**{self._get_splat()},", "**{self._get_splat()!r},")  # str(dict) is repr(dict)
    assert text.startswith(pre) and text.endswith(post), text
    out = []
    for x in text[len(pre):-len(post)].split(", "):
        if x:
            m = re.fullmatch(r"(\w+)=\{self\.(\w+)(!r)?\}", x)
            assert m, x
            out.append((m.group(1), m.group(2), ".repr" if m.group(3) else ".str"))
    return f"fastkml/{c[0]}.py:{fn.lineno}-{fn.end_lineno}", out


GEOM = {"Point": "point", "LineString": "lineString", "LinearRing": "linearRing",
        "BoundaryIs": "boundary", "Polygon": "polygon", "MultiGeometry": "multi",
        "Track": "track", "MultiTrack": "multiTrack", "Location": "location",
        "Model": "model", "Placemark": "placemark"}
SPECIAL = {"Schema": "schema", "Track": "track", "Placemark": "placemark", "KML": "kml"}


def geom(k):
    c, fn = inherited(k, "geometry")
    if fn is None:
        return ".none", "no `geometry`"
    return "." + GEOM[c[1]], f"fastkml/{c[0]}.py:{fn.lineno}-{fn.end_lineno}"


def special(k):
    for c in mro(k):
        if c[1] in SPECIAL:
            return "." + SPECIAL[c[1]]
    return ".none"


GET = {"node_text_kwarg": "nodeText", "subelement_text_kwarg": "subText",
       "attribute_text_kwarg": "attrText", "subelement_bool_kwarg": "subBool",
       "subelement_int_kwarg": "subInt", "attribute_int_kwarg": "attrInt",
       "subelement_float_kwarg": "subFloat", "attribute_float_kwarg": "attrFloat",
       "subelement_enum_kwarg": "subEnum", "attribute_enum_kwarg": "attrEnum",
       "datetime_subelement_kwarg": "subDt", "datetime_subelement_list_kwarg": "subDtList",
       "coords_subelement_list_kwarg": "coordsList", "xml_subelement_kwarg": "xmlSub",
       "xml_subelement_list_kwarg": "xmlSubList", "subelement_coordinates_kwarg": "coordinates"}
SET = {"node_text": "nodeText", "text_subelement": "subText", "text_attribute": "attrText",
       "bool_subelement": "subBool", "int_subelement": "subInt", "int_attribute": "attrInt",
       "float_subelement": "subFloat", "float_attribute": "attrFloat",
       "enum_subelement": "subEnum", "enum_attribute": "attrEnum",
       "datetime_subelement": "subDt", "datetime_subelement_list": "subDtList",
       "coords_subelement_list": "coordsList", "xml_subelement": "xmlSub",
       "xml_subelement_list": "xmlSubList", "coordinates_subelement": "coordinates"}
PYTYPE = {"str": ".str", "int": ".int", "float": ".float", "bool": ".bool", "tuple": ".tuple",
          "LineType": ".lineType", "KmlDateTime": ".kmlDateTime"}

etree = ast.parse(open(f"{root}/enums.py").read())
ENUMS = {}
for n in etree.body:
    if isinstance(n, ast.ClassDef):
        m = {}
        for b in n.body:
            if isinstance(b, ast.Assign):
                m[b.targets[0].id] = ast.literal_eval(b.value)
        ENUMS[n.name] = m


def enum_id(n):
    return n[0].lower() + n[1:]


def pytype(f, e):
    r = resolve(f, e)
    if r in classes:
        return f".cls .{lean_name(r)}"
    if r[1] in ENUMS:
        return f".enum .{enum_id(r[1])}"
    return PYTYPE[r[1]]


def flt(e):
    t = repr(ast.literal_eval(e))
    neg = t.startswith("-")
    t = t.lstrip("-")
    i, d = t.split(".")
    d = "" if d == "0" else d
    n = int(i + d)
    return f"({'-' if neg else ''}{n}) {len(d)}"


def default(f, e):
    if e is None:
        return ".none"
    if isinstance(e, ast.Attribute):
        en, m = e.value.id, e.attr
        return f".enum .{enum_id(en)} {s(ENUMS[en][m])}"
    if isinstance(e, ast.Tuple):
        out = []
        for x in e.elts:
            a = flt(x).rsplit(" ", 1)
            out.append(f"({a[0]}, {a[1]})")
        return ".floats " + slist(out)
    v = ast.literal_eval(e)
    if v is None:
        return ".none"
    if isinstance(v, bool):
        return f".bool {'true' if v else 'false'}"
    if isinstance(v, int):
        return f".int ({v})"
    if isinstance(v, float):
        return f".float {flt(e)}"
    if isinstance(v, str):
        return f".str {s(v)}"
    raise Exception(ast.dump(e))


items = {k: [] for k in order}
for f in FILES:
    for n in trees[f].body:
        if (isinstance(n, ast.Expr) and isinstance(n.value, ast.Call)
                and ast.unparse(n.value.func) == "registry.register"):
            c = resolve(f, n.value.args[0])
            call = n.value.args[1] if len(n.value.args) > 1 else n.value.keywords[0].value
            kw = {k.arg: k.value for k in call.keywords}
            node = ast.literal_eval(kw["node_name"])
            regs.append((c, f, n.lineno, n.end_lineno))
            ns_ids = kw["ns_ids"]
            items[c].append((f, n.lineno, n.end_lineno,
                slist(s(CONFIG.get(ast.unparse(x)) if ast.unparse(x) in CONFIG else ast.literal_eval(x)) for x in ns_ids.elts),
                slist(pytype(f, x) for x in kw["classes"].elts),
                s(ast.literal_eval(kw["attr_name"])),
                "." + GET[ast.unparse(kw["get_kwarg"])],
                "." + SET[ast.unparse(kw["set_element"])],
                s(node), default(f, kw.get("default"))))

out = []
w = out.append
w("import Verif.Base\n")
w("/-!\n# The classes and registrations of fastkml\n\nGenerated by tools/gen.py from the text of /repo/fastkml; do not edit.\n-/\n")
w("namespace Verif\n")
w("/-- The subclasses of `_XMLObject` (fastkml/base.py:54).  `atom_Link` is\n`fastkml.atom.Link`. -/")
w("inductive Cls where")
for k in order:
    w(f"  /-- fastkml/{k[0]}.py:{classes[k]['line'][0]}-{classes[k]['line'][1]} -/\n  | {lean_name(k)}")
w("deriving DecidableEq, Repr\n")
w("/-- All classes. -/")
w("def Cls.all : List Cls := [" + ", ".join("." + lean_name(k) for k in order) + "]\n")
w("theorem Cls.mem_all (c : Cls) : c ∈ Cls.all := by cases c <;> simp [Cls.all]\n")
for k in order:
    n = lean_name(k)
    t, tw = tag(k)
    sl, kwargs, cites = slots(k)
    br, bw = bool_rule(k)
    g, gw = geom(k)
    w(f"/-- `{k[0]}.{k[1]}` (fastkml/{k[0]}.py:{classes[k]['line'][0]}-{classes[k]['line'][1]}); tag {tw};\nconstructor {', '.join(cites)};\ntruth value {bw}; geometry {gw}. -/")
    w(f"def info_{n} : ClsInfo Cls where")
    w("  mro := [" + ", ".join("." + lean_name(c) for c in mro(k)) + "]")
    w(f"  tag := {s(t)}")
    w(f"  nsid := {s(nsid(k))}")
    w("  slots := [" + ",\n    ".join(f"({s(a)}, {m})" for a, m in sl) + "]")
    w(f"  kwargs := {'true' if kwargs else 'false'}")
    w(f"  bool := {br}")
    w(f"  geom := {g}")
    w(f"  special := {special(k)}\n")
w("/-- The behaviour of every class. -/")
w("def clsInfo : Cls → ClsInfo Cls")
for k in order:
    w(f"  | .{lean_name(k)} => info_{lean_name(k)}")
w("")
for k in order:
    if items[k]:
        n = lean_name(k)
        w(f"/-- The registrations for `{k[0]}.{k[1]}`, in order (fastkml/{k[0]}.py:{items[k][0][1]}-{items[k][-1][2]}). -/")
        w(f"def items_{n} : List (Item Cls) := [")
        for i, (f, l0, l1, ns, cl, at, ge, se, no, de) in enumerate(items[k]):
            w(f"  -- fastkml/{f}.py:{l0}-{l1}")
            w(f"  ⟨{ns}, {cl}, {at}, {ge}, {se}, {no}, {de}⟩" + ("," if i + 1 < len(items[k]) else "]"))
        w("")
w("/-- The calls of `registry.register` made when the modules are imported, grouped\nby class (calls for different classes commute, see `Verif.Registry`). -/")
w("def registrations : List (Cls × Item Cls) := List.flatten [\n  " + ",\n  ".join(
    f"items_{lean_name(k)}.map (fun i => (Cls.{lean_name(k)}, i))" for k in order if items[k]) + "]\n")
w("/-- The global registry (fastkml/registry.py:182) after import. -/")
w("def kmlRegistry : Registry Cls := registrations.foldl (fun r p => r.register p.1 p.2) []\n")
w("/-- fastkml. -/")
w("def fastkml : Lib Cls := ⟨clsInfo, kmlRegistry⟩\n")
w("end Verif")
if sys.argv[2:] == ["dict"]:
    out = []
    w = out.append
    w("import Verif.Classes\n")
    w("/-!\n# The order of instance attributes\n\nGenerated by tools/gen.py from the text of /repo/fastkml; do not edit.\n-/\n")
    w("namespace Verif\n")
    w("/-- The attributes that the constructor sets before it reaches\n`_XMLObject.__init__` (fastkml/base.py:62-88), in order. -/")
    w("def beforeBase : Cls → List Str")
    for k in order:
        c, fn = inherited(k, "__init__")
        w(f"  -- fastkml/{c[0]}.py:{fn.lineno}-{fn.end_lineno}")
        w(f"  | .{lean_name(k)} => " + slist(s(a) for a in before_base(k)))
    w("\nend Verif")
if sys.argv[2:] == ["repr"]:
    out = []
    w = out.append
    w("import Verif.Make\n")
    w("/-!\n# The arguments in `__repr__`\n\nGenerated by tools/gen.py from the text of /repo/fastkml; do not edit.\n-/\n")
    w("namespace Verif\n")
    w("/-- How an f-string prints a value: `{x!r}` or `{x}`. -/")
    w("inductive Conv where\n  | repr | str\nderiving DecidableEq, Repr\n")
    w("/-- The arguments that `__repr__` prints between `ns={self.ns!r},\nname_spaces={self.name_spaces!r}` and `**{self._get_splat()!r}`: keyword, attribute\nand conversion. -/")
    w("def reprFields : Cls → List (Str × Str × Conv)")
    for k in order:
        where, r = repr_fields(k)
        w(f"  -- {where}")
        w(f"  | .{lean_name(k)} => " + "[" + ",\n    ".join(f"({s(a)}, {s(b)}, {c})" for a, b, c in r) + "]")
    w("\nend Verif")
print("\n".join(out))
