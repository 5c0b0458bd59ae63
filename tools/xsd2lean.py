"""Write lean/Verif/XsdData.lean: the declarations of the XML schemas in
/repo/fastkml/schema, read as text (no schema processor is used)."""
import re
import sys
import xml.parsers.expat as expat

DIR = "/repo/fastkml/schema/"
FILES = [("kml", "ogckml22.xsd"), ("gx", "kml22gx.xsd"), ("atom", "atom-author-link.xsd")]


class Node:
    def __init__(self, tag, attrs, line):
        self.tag, self.attrs, self.line, self.end, self.kids = tag, attrs, line, line, []


def parse(path):
    root, stack = [], []
    p = expat.ParserCreate()

    def start(tag, attrs):
        n = Node(tag.split(":")[-1], attrs, p.CurrentLineNumber)
        (stack[-1].kids if stack else root).append(n)
        stack.append(n)

    def end(tag):
        stack.pop().end = p.CurrentLineNumber

    p.StartElementHandler, p.EndElementHandler = start, end
    with open(path, "rb") as f:
        p.ParseFile(f)
    return root[0]


def s(t):
    return '(s% "' + t + '")'


def qn(ns, t):
    """A qualified name; names without prefix are built-in types of XML Schema."""
    if ":" in t:
        pre, loc = t.split(":")
        return f".q .{pre} {s(loc)}"
    return f".q .xs {s(t)}"


def own(ns, t):
    return f".q .{ns} {s(t)}"


def opt(x):
    return ".none" if x is None else f"(.some {x})"


def occurs(n):
    lo = n.attrs.get("minOccurs", "1")
    hi = n.attrs.get("maxOccurs", "1")
    assert lo in ("0", "1") and hi in ("1", "unbounded"), (lo, hi)
    return int(lo), hi == "unbounded"


def alt(ns, e):
    if "ref" in e.attrs:
        return f"(⟨{qn(ns, e.attrs['ref'])}, .none⟩)"
    return f"(⟨{own(ns, e.attrs['name'])}, .some ({qn(ns, e.attrs['type'])})⟩)"


def particles(ns, seq, notes):
    out = []
    for e in seq.kids:
        if e.tag == "annotation":
            continue
        if e.tag == "element":
            lo, unb = occurs(e)
            out.append((e.line, f"⟨[{alt(ns, e)}], {lo}, {str(unb).lower()}⟩"))
        elif e.tag == "choice":
            out.append((e.line, choice(ns, e)))
        elif e.tag == "any":
            notes.append(f"wildcard in line {e.line} left out")
        else:
            raise ValueError(e.tag)
    return out


def choice(ns, e):
    lo, unb = occurs(e)
    alts = [k for k in e.kids if k.tag != "annotation"]
    assert all(k.tag == "element" for k in alts)
    assert all(not occurs(k)[1] for k in alts)
    # a choice with an alternative that may be missing may be empty
    if any(occurs(k)[0] == 0 for k in alts):
        lo = 0
    return "⟨[" + ", ".join(alt(ns, k) for k in alts) + f"], {lo}, {str(unb).lower()}⟩"


def attribute(ns, a):
    req = a.attrs.get("use") == "required"
    ty = a.attrs.get("type")
    return (a.line, f"⟨{s(a.attrs['name'])}, {opt('(' + qn(ns, ty) + ')' if ty else None)}, {str(req).lower()}, "
            f"{opt(s(a.attrs['default']) if 'default' in a.attrs else None)}⟩")


def body(ns, t, groups, notes):
    """base, particles, attributes, whether the content is a text"""
    base, ps, ats, simple = None, [], [], False
    for k in t.kids:
        if k.tag == "annotation":
            continue
        if k.tag in ("complexContent", "simpleContent"):
            ext = [x for x in k.kids if x.tag != "annotation"]
            assert len(ext) == 1 and ext[0].tag == "extension"
            b2, ps, ats, _ = body(ns, ext[0], groups, notes)
            base, simple = ext[0].attrs["base"], k.tag == "simpleContent"
        elif k.tag == "sequence":
            ps = ps + particles(ns, k, notes)
        elif k.tag == "choice":
            ps = ps + [(k.line, choice(ns, k))]
        elif k.tag == "attribute":
            ats = ats + [attribute(ns, k)]
        elif k.tag == "attributeGroup":
            ats = ats + groups[k.attrs["ref"].split(":")[-1]]
        else:
            raise ValueError(k.tag)
    return base, ps, ats, simple


def main():
    out = []
    elems, types, simples = [], [], []
    for ns, fn in FILES:
        root = parse(DIR + fn)
        groups = {}
        for d in root.kids:
            if d.tag == "attributeGroup":
                groups[d.attrs["name"]] = [attribute(ns, a) for a in d.kids if a.tag == "attribute"]
        for d in root.kids:
            cite = f"fastkml/schema/{fn}:{d.line}" + ("" if d.end == d.line else f"-{d.end}")
            if d.tag == "element":
                ty = d.attrs.get("type")
                inner = [k for k in d.kids if k.tag == "complexType"]
                tyq = "(" + qn(ns, ty) + ")" if ty else None
                if inner:
                    # an anonymous type gets the name of the element
                    types.append((cite, ns, d.attrs["name"], inner[0], groups))
                    tyq = "(" + own(ns, d.attrs["name"]) + ")"
                sg = d.attrs.get("substitutionGroup")
                elems.append((cite, f"⟨{own(ns, d.attrs['name'])}, {opt(tyq)}, "
                              f"{opt('(' + qn(ns, sg) + ')' if sg else None)}, "
                              f"{str(d.attrs.get('abstract') == 'true').lower()}, "
                              f"{opt(s(d.attrs['default']) if 'default' in d.attrs else None)}⟩"))
            elif d.tag == "complexType":
                types.append((cite, ns, d.attrs["name"], d, groups))
            elif d.tag == "simpleType":
                vals = [e.attrs["value"] for k in d.kids for e in k.kids if e.tag == "enumeration"]
                if vals:
                    simples.append((cite, f"⟨{own(ns, d.attrs['name'])}, [{', '.join(s(v) for v in vals)}]⟩"))
    out.append("""import Verif.XsdTypes

/-!
# The XML schemas

Generated by tools/xsd2lean.py from /repo/fastkml/schema: the element declarations,
complex types and enumerations of ogckml22.xsd, kml22gx.xsd and atom-author-link.xsd.
-/

namespace Verif

open QN""")
    out.append("/-- The element declarations, in the order of the files. -/\ndef xsdElems : List XElem := [")
    out += [f"  -- {c}\n  {e}{',' if i + 1 < len(elems) else ']'}" for i, (c, e) in enumerate(elems)]
    names = []
    for cite, ns, name, node, groups in types:
        notes = []
        base, ps, ats, simple = body(ns, node, groups, notes)
        ident = f"xsd_{ns}_{name}"
        names.append(ident)
        note = "".join("; " + n for n in notes)
        out.append(f"\n/-- {cite}{note} -/\ndef {ident} : XType where\n  name := {own(ns, name)}\n"
                   f"  base := {opt('(' + qn(ns, base) + ')' if base else None)}\n"
                   f"  particles := [" + ",\n    ".join(p for _, p in ps) + "]\n"
                   f"  attrs := [" + ",\n    ".join(a for _, a in ats) + "]\n"
                   f"  text := {str(simple).lower()}")
    out.append("\n/-- The complex types. -/\ndef xsdTypes : List XType := [" + ",\n  ".join(names) + "]")
    out.append("\n/-- The enumerations. -/\ndef xsdEnums : List XEnum := [")
    out += [f"  -- {c}\n  {e}{',' if i + 1 < len(simples) else ']'}" for i, (c, e) in enumerate(simples)]
    out.append("\nend Verif")
    with open("/verif/lean/Verif/XsdData.lean", "w") as f:
        f.write("\n".join(out) + "\n")


main()
