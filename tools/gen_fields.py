#!/usr/bin/env python3
"""Table of field classes: /repo/httplint/field/parsers/*.py, deprecated.py, unnecessary.py, read as text."""
import ast, os, sys, io
sys.path.insert(0, os.path.dirname(__file__))
import gen_syntax as G
D = "/repo/httplint/field/parsers"
OUT = "/verif/lean/Verif/FieldTable.lean"
KINDS = {"HttpListField":"list","SingletonField":"singleton","BrokenField":"broken","StructuredField":"sf","JsonField":"json"}
base_env = {m: G.ENV[m] for m in G.MODS}
RFC = {}
for st in ast.parse(open("/repo/httplint/field/__init__.py").read()).body:
    if isinstance(st, ast.Assign) and st.targets[0].id.startswith("RFC"): RFC[st.targets[0].id] = st.value.value

def ev(n, env):
    if isinstance(n, ast.Constant): return n.value
    if isinstance(n, ast.JoinedStr): return "".join(str(ev(v, env)) for v in n.values)
    if isinstance(n, ast.FormattedValue): return str(ev(n.value, env))
    if isinstance(n, ast.Name): return env[n.id]
    if isinstance(n, ast.Attribute) and isinstance(n.value, ast.Name):
        if n.value.id == "categories": return n.attr
        return env[n.value.id][n.attr]
    if isinstance(n, ast.BinOp) and isinstance(n.op, ast.Add): return ev(n.left, env) + ev(n.right, env)
    if isinstance(n, ast.Call):
        f = n.func.id if isinstance(n.func, ast.Name) else n.func.attr
        if f == "list_rule":
            a = [ev(x, env) for x in n.args]; a[0] = str(a[0]); return G.ListRule(*a)
    raise Exception(ast.dump(n))

def lstr(s): return '"' + s.replace("\\", "\\\\").replace('"', '\\"').replace("\n", "\\n") + '"'
def re_of(txt, where):
    if txt == "(?-i:true)": return '(RE.sens (lit (str "true")))'
    p = G.P(txt, where); a = p.alt(); p.skip(); assert p.i == len(txt), where
    return G.lean(a)

fields = {}
for f in sorted(os.listdir(D)):
    if not f.endswith(".py") or f == "__init__.py": continue
    mod = f[:-3]
    tree = ast.parse(open(f"{D}/{f}").read())
    env = dict(base_env); env.update(RFC)
    for st in tree.body:
        if isinstance(st, ast.ImportFrom) and st.module and st.module.startswith("httplint.syntax."):
            m = st.module.split(".")[-1]
            for al in st.names:
                if al.name in G.ENV[m]: env[al.asname or al.name] = G.ENV[m][al.name]
        if isinstance(st, ast.Assign) and isinstance(st.targets[0], ast.Name):
            try: env[st.targets[0].id] = ev(st.value, env)
            except Exception: pass
        if isinstance(st, ast.ClassDef) and st.name == mod:
            base = st.bases[0]
            if isinstance(base, ast.Subscript):
                kind = KINDS[base.value.id]; proto = ast.unparse(base.slice)
                a = dict(kind=kind, category="GENERAL", syntax=None, report_syntax=True, deprecated=False, sf_type="item")
                a["valid"] = {"RequestLinterProtocol":(True,False),"ResponseLinterProtocol":(False,True)}.get(proto,(True,True))
            else:
                a = dict(fields[base.id])
            a["line"] = st.lineno; a["file"] = f
            for s in st.body:
                if isinstance(s, ast.Assign) and s.targets[0].id in ("canonical_name","reference","category","syntax","report_syntax","deprecated","sf_type","deprecation_ref"):
                    a[s.targets[0].id] = ev(s.value, env)
                if isinstance(s, ast.FunctionDef) and s.name == "__init__": a["init"] = ast.unparse(s)
            assert not (a["kind"]=="list" and False)
            fields[mod] = a

o = io.StringIO()
w = lambda s: print(s, file=o)
w("import Verif.Syntax\nimport Verif.NoteTable\n")
w("""/-!
GENERATED by tools/gen_fields.py from the text of /repo/httplint/field/parsers/*.py, field/deprecated.py and
field/unnecessary.py: the class attributes of every field parser.  `syntax` is the expression matched against
each element for list fields (`list_rule.element` or the string itself, list_field.py:34-38) and against the
whole line for the other kinds; `none` stands for `False`.  `validReq`/`validResp` follow
field/__init__.py:54-101 (the class's generic argument).
-/

set_option maxRecDepth 8000

namespace HL
open RE Syntax

/-- the handler classes (module name = class name), and the three generic ones -/
inductive FieldId where""")
def lid(m): return m + "_"
for m in fields: w(f"  | {lid(m)}")
w("""  /-- field/deprecated.py:189 -/
  | deprecatedField
  /-- field/unnecessary.py:28 -/
  | unnecessaryField
  /-- field/finder.py:91 -/
  | unknownField
  deriving DecidableEq, Repr, Inhabited

/-- the base class of a field -/
inductive FieldKind where
  | list | singleton | broken | sf (tltype : Str) | json | unknown
  deriving DecidableEq, Repr, Inhabited

structure FieldInfo where
  kind : FieldKind
  /-- `none`: the wire name (field/__init__.py:106-107) -/
  canonicalName : Option Str
  reference : Str
  category : Cat := .GENERAL
  syn : Option RE := none
  reportSyntax : Bool := true
  deprecated : Bool := false
  validReq : Bool := true
  validResp : Bool := true

/-- class attributes -/
def FieldId.info : FieldId → FieldInfo""")
for m, a in fields.items():
    k = a["kind"]
    kk = f'.sf (str "{a["sf_type"]}")' if k == "sf" else "." + k
    syn = a["syntax"]
    parts = [f"kind := {kk}", "canonicalName := " + (f'some (str {lstr(a["canonical_name"])})' if "canonical_name" in a else "none"), f'reference := str {lstr(a["reference"])}']
    if a["category"] != "GENERAL": parts.append(f'category := .{a["category"]}')
    if syn and k not in ("sf", "json"):
        txt = syn.element if (isinstance(syn, G.ListRule) and k == "list") else str(syn)
        parts.append(f"syn := some {re_of(txt, m)}")
    if not a["report_syntax"]: parts.append("reportSyntax := false")
    if a["deprecated"]: parts.append("deprecated := true")
    if not a["valid"][0]: parts.append("validReq := false")
    if not a["valid"][1]: parts.append("validResp := false")
    assert "deprecation_ref" not in a
    w(f'  /- field/parsers/{a["file"]}:{a["line"]} -/\n  | .{lid(m)} => {{ ' + ", ".join(parts) + " }")
w("""  /- field/deprecated.py:189-202; name, category and reference are per instance -/
  | .deprecatedField => { kind := .list, canonicalName := none, reference := [], deprecated := true }
  /- field/unnecessary.py:28-37 -/
  | .unnecessaryField => { kind := .list, canonicalName := none, reference := str "about:blank" }
  /- field/finder.py:91-98 -/
  | .unknownField => { kind := .unknown, canonicalName := none, reference := str "about:blank" }
""")
w("/-- `sys.modules` entries below httplint.field.parsers with a class of the same name (finder.py:75-79) -/")
w("def parserModules : List (Str × FieldId) := [")
w(",\n".join(f'  (str "{m}", .{lid(m)})' for m in fields) + "]\n")
# deprecated
tree = ast.parse(open("/repo/httplint/field/deprecated.py").read())
tabs = {}
for st in tree.body:
    if isinstance(st, ast.AnnAssign) and isinstance(st.value, ast.Dict):
        tabs[st.target.id] = [(k.value, v.elts[0].attr, v.elts[1].value, k.lineno) for k, v in zip(st.value.keys, st.value.values)]
order = ["UNREGISGTERED_DEPRECATED_FIELDS", "DEPRECATED_FIELDS", "OBSOLETED_FIELDS"]
allf = {}
for t in order:
    for k, c, r, l in tabs[t]: allf[k] = (c, r, l)
w("/-- field/deprecated.py:181-186: lower-cased name, canonical name, category, reference -/")
w("def deprecatedTable : List (Str × Str × Cat × Str) := [")
lk = {}
for k in allf: lk[k.lower()] = k
w(",\n".join(f'  (str "{lo}", str "{k}", .{allf[k][0]}, str {lstr(allf[k][1])})' for lo, k in lk.items()) + "]\n")
tree = ast.parse(open("/repo/httplint/field/unnecessary.py").read())
for st in tree.body:
    if isinstance(st, ast.Assign) and st.targets[0].id == "UNNECESSARY_FIELDS":
        keys = [k.value for k in st.value.keys]
w("/-- field/unnecessary.py:7-25 -/")
w("def unnecessaryNames : List Str := [" + ", ".join(f'str "{k}"' for k in keys) + "]\n")
w("end HL")
open(OUT, "w").write(o.getvalue())
for m, a in fields.items():
    if "init" in a: print(m, a["init"])
print(len(fields))
