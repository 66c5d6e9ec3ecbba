#!/usr/bin/env python3
"""Extract every Note subclass of /repo/httplint (read as text) into a Lean table."""
import ast, os
R="/repo/httplint"
OUT="/verif/lean/Verif/NoteTable.lean"
rows=[]
for d,_,fs in sorted(os.walk(R)):
    for f in sorted(fs):
        if not f.endswith(".py"): continue
        p=os.path.join(d,f); rel=os.path.relpath(p,R)
        for c in ast.parse(open(p).read()).body:
            if not isinstance(c,ast.ClassDef): continue
            bs=[b.id for b in c.bases if isinstance(b,ast.Name)]
            if not ("Note" in bs or "BAD_SYNTAX" in bs): continue
            at={"_summary":"","_text":""}
            for s in c.body:
                if isinstance(s,ast.Assign):
                    v=s.value
                    if isinstance(v,ast.Attribute): at[s.targets[0].id]=v.attr
                    else: at[s.targets[0].id]=ast.literal_eval(v)
            rows.append((c.name,rel,c.lineno,at))
cnt={}
for r in rows: cnt[r[0]]=cnt.get(r[0],0)+1
def nm(r):
    if cnt[r[0]]>1: return r[0]+"_"+os.path.basename(r[1])[:-3]
    return r[0]
def q(s): return '"'+s.replace("\\","\\\\").replace('"','\\"').replace("\n","\\n").replace("\t","\\t")+'"'
o=["import Verif.Py","","/-!","GENERATED by tools/gen_notes.py: one constructor per `Note` subclass in /repo/httplint (read as text).",
"Classes that share a name are suffixed with their module.  `summary` and `text` are the `%`-format",
"templates `_summary` and `_text` (English; note.py:102-103 default them to the empty string).","-/","","namespace HL","",
"/-- note.py:41-52 -/","inductive Cat where","  | GENERAL | CONNECTION | SECURITY | CORS | COOKIES | CONNEG | CACHING | VALIDATION | RANGE","  deriving DecidableEq, Repr, Inhabited","",
"/-- note.py:55-61 -/","inductive Level where","  | GOOD | WARN | BAD | INFO","  deriving DecidableEq, Repr, Inhabited","",
"/-- the `Note` subclasses -/","inductive NoteId where"]
for r in rows: o.append(f"  /-- {r[1]}:{r[2]} -/\n  | {nm(r)}")
o.append("  deriving DecidableEq, Repr, Inhabited\n")
o.append("namespace NoteId\n")
o.append("/-- the class attribute `category` -/\ndef cat : NoteId → Cat")
for r in rows: o.append(f"  | {nm(r)} => .{r[3]['category']}")
o.append("\n/-- the class attribute `level` -/\ndef level : NoteId → Level")
for r in rows: o.append(f"  | {nm(r)} => .{r[3]['level']}")
o.append("\n/-- the class attribute `_summary` -/\ndef summary : NoteId → Str")
for r in rows: o.append(f"  | {nm(r)} => str {q(r[3]['_summary'])}")
o.append("\n/-- the class attribute `_text` -/\ndef text : NoteId → Str")
for r in rows: o.append(f"  | {nm(r)} => str {q(r[3]['_text'])}")
o.append("\n/-- every note class -/\ndef all : List NoteId := [")
o.append("  "+", ".join("."+nm(r) for r in rows)+"]")
o.append("\nend NoteId\n\nend HL")
open(OUT,"w").write("\n".join(o)+"\n")
print(len(rows))
