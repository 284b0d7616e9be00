#!/usr/bin/env python3
"""Compares the table of lean/Verif/Model/Classes.lean with the classes of /repo, which are read as text (ast), not run."""
import ast, re, pathlib

root = pathlib.Path(__file__).resolve().parent.parent
src = {}
order = {}
for f in ["complex_objects.py", "messages.py"]:
    for n in ast.parse(open(f"/repo/src/pypsrp/{f}").read()).body:
        if isinstance(n, ast.ClassDef):
            src[n.name] = n


def meta(call):
    kind = call.func.id
    kw = {k.arg: k.value for k in call.keywords}
    tag = {"ObjectMeta": "star", "ListMeta": "LST", "DictionaryMeta": "DCT"}[kind]
    if call.args:
        tag = call.args[0].value
    name = kw["name"].value if "name" in kw else None
    return (tag, name, "optional" in kw and kw["optional"].value, ast.unparse(kw["object"]) if "object" in kw else None)


def source(name):
    cls = src[name]
    fields = {"_extended_properties": [], "_adapted_properties": []}
    init = []
    for fn in cls.body:
        if isinstance(fn, ast.FunctionDef) and fn.name == "__init__":
            for st in fn.body:
                tgt = st.targets[0] if isinstance(st, ast.Assign) else None
                if isinstance(tgt, ast.Attribute) and not tgt.attr.startswith("_") and tgt.attr != "types":
                    init.append(tgt.attr)
                if isinstance(tgt, ast.Attribute) and tgt.attr in fields:
                    fields[tgt.attr] = [(e.elts[0].value,) + meta(e.elts[1]) for e in st.value.elts]
    return fields, init


text = (root / "lean/Verif/Model/Classes.lean").read_text()


def lean_fields(block):
    out = []
    for m in re.finditer(r'(prim|objOf|anyOf|dynOf|listOf|dictOf) "(\w+)" ((?:\.\w+ )?)"([\w.]+)"([^,\]]*)|⟨"(\w+)"\.toList, \.plain \.(\w+) (none|\(some "(\w+)"\.toList\)) (true|false), \.(?:cls "(\w+)"|plain)|invocationFields', block):
        if m.group(0) == "invocationFields":
            out.append("INV")
            continue
        if m.group(6):
            out.append((m.group(6), m.group(7), m.group(9), m.group(10) == "true", m.group(11)))
            continue
        k, attr, tag, name, rest = m.group(1), m.group(2), m.group(3).strip(" ."), m.group(4), m.group(5)
        obj = None
        if k == "objOf":
            tag, obj = "Obj", re.search(r'"(\w+)"', rest).group(1)
        if k == "anyOf":
            tag = "star"
        if k == "dynOf":
            tag, obj = "ObjDynamic", "GenericComplexObject"
        if k == "listOf":
            tag = "LST"
        if k == "dictOf":
            tag = "DCT"
        tail = rest
        if k == "listOf":
            tail = block[m.start():m.start() + 400].split(",\n")[0] if "[" not in rest else rest
        out.append((attr, tag, name, bool(re.search(r"\btrue\b", tail)), obj))
    return out


def section(name):
    """The text of the Lean definition of a class."""
    alias = {"ErrorRecord": "errorRecord", "InformationalRecord": "informationalRecord", "RunspacePoolHostCall": "hostCall",
             "RunspacePoolHostResponse": "hostResponse"}
    if name in alias:
        return re.search(r"def %s\b.*?(?=\n\n|\ndef )" % alias[name], text, re.S).group(0)
    m = re.search(r'\("%s", \{(.*?)\}\)' % name, text, re.S)
    return m.group(1) if m else None


inv = lean_fields(re.search(r"def invocationFields.*?\n\n", text, re.S).group(0).split(":=", 1)[1])
bad = 0
for name in src:
    sec = section(name)
    if sec is None:
        continue
    part = {}
    for key in ["extended", "adapted"]:
        m = re.search(r"%s := (.*?)(?=\n? +(?:init|text|readOnly|adapted|extended) :=|, init :=|$)" % key, sec, re.S)
        fs = []
        for f in lean_fields(m.group(1)) if m else []:
            fs += inv if f == "INV" else [f]
        part[key] = fs
    fields, init = source(name)
    for key in ["extended", "adapted"]:
        want = [(a, "star" if t == "*" else t, n, o, ob) for (a, t, n, o, ob) in fields[f"_{key}_properties"]]
        if want != part[key]:
            bad += 1
            print("DIFFERENT", name, key)
            for x in want:
                if x not in part[key]:
                    print("  source", x)
            for x in part[key]:
                if x not in want:
                    print("  lean  ", x)
    got = re.findall(r'same "(\w+)"|\("(\w+)"\.toList, \.(?:kw|const|given)', sec)
    got = [a or b for a, b in got] + ([f[0] for f in inv] if "invocationInit" in sec else [])
    if sorted(got) != sorted(init):
        bad += 1
        print("INIT", name, sorted(set(init) ^ set(got)))
print("classes compared:", sum(section(n) is not None for n in src), "differences:", bad)
