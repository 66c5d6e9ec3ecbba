#!/usr/bin/env python3
"""Descriptions of the field classes: /repo/httplint/field/parsers/*.py and unnecessary.py, read as text."""
import ast, os
D = "/repo/httplint/field/parsers"
OUT = "/verif/lean/Verif/Descriptions.lean"
def lstr(s): return '"' + s.replace("\\", "\\\\").replace('"', '\\"').replace("\n", "\\n") + '"'
o = ["import Verif.Section", "", "/-!",
 "GENERATED by tools/gen_descriptions.py from the text of /repo/httplint/field/parsers/*.py and field/unnecessary.py:",
 "the `description` of every field class.", "-/", "", "set_option maxRecDepth 8000", "", "namespace HL", "",
 "/-- the class attribute `description`; `[]` for the two classes that make it in their constructor -/",
 "def FieldId.description : FieldId → Str"]
for f in sorted(os.listdir(D)):
    if not f.endswith(".py") or f == "__init__.py": continue
    mod = f[:-3]
    for st in ast.parse(open(f"{D}/{f}").read()).body:
        if isinstance(st, ast.ClassDef) and st.name == mod:
            d = [ast.literal_eval(s.value) for s in st.body if isinstance(s, ast.Assign) and s.targets[0].id == "description"]
            assert len(d) == 1, mod
            o.append(f"  /- parsers/{f} -/")
            o.append(f"  | .{mod}_ => str {lstr(d[0])}")
o += ["  /- finder.py:94 -/", '  | .unknownField => str "Unknown"', "  | .deprecatedField => []", "  | .unnecessaryField => []", "",
      "/-- field/unnecessary.py:7-25 `UNNECESSARY_FIELDS` -/", "def unnecessaryDescriptions : Dict Str := ["]
for st in ast.parse(open("/repo/httplint/field/unnecessary.py").read()).body:
    if isinstance(st, ast.Assign) and st.targets[0].id == "UNNECESSARY_FIELDS":
        o.append(",\n".join(f"  (str {lstr(k)}, str {lstr(v)})" for k, v in ast.literal_eval(st.value).items()) + "]")
o += ["""
/-- deprecated.py:209-211: the description made by the constructor -/
def deprecatedDescription (canonical reference : Str) : Str :=
  str "The " ++ canonical ++ str " field is deprecated; it is not actively used by HTTP software.\\nIt is safe to remove it from this message. For more information, see [here](" ++
    reference ++ str ")."

/-- `handler_class(field_name, _linter).description` (field/__init__.py:103-109, deprecated.py:203-211, unnecessary.py:33-36).
`DeprecatedField` asserts that it knows the (stripped, lower-cased) name. -/
def handlerDescription (fid : FieldId) (name : Str) : Except Exn Str :=
  match fid with
  | .deprecatedField => match deprecatedTable.find? (fun p => p.1 == lower (strip name)) with
    | some (_, canon, _, ref) => .ok (deprecatedDescription canon ref)
    | none => .error .otherError
  | .unnecessaryField => .ok ((dget unnecessaryDescriptions (lower (strip name))).getD [])
  | f => .ok f.description

/-- field/description.py:10-17 `get_field_description`.  The linter given to the handler is not used by its constructor. -/
def getFieldDescription (translate : Str → Str) (name : Str) : Except Exn (Option Str) :=
  match findHandlerClass name with
  | none => .ok none
  | some fid => match handlerDescription fid name with
    | .error e => .error e
    | .ok d => .ok (if d.isEmpty then none else some (translate d))

end HL"""]
open(OUT, "w").write("\n".join(o) + "\n")
