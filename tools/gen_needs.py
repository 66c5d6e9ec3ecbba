#!/usr/bin/env python3
"""The names each note template refers to, as a Lean table (checked against the templates by NoteNeeds.lean)."""
import re,sys
s=open('/verif/lean/Verif/NoteTable.lean').read()
def table(name):
    a=s.index(f"def {name} : NoteId")
    out={}
    for l in s[a:].split("\n")[1:]:
        m=re.match(r'  \| (\w+) => str "(.*)"$',l)
        if not m: break
        out[m[1]]=m[2]
    return out
S,T=table("summary"),table("text")
o=["import Verif.Note","","/-!","GENERATED by tools/gen_needs.py: the variables each note class's templates refer to.","-/","","namespace HL","",
"/-- the names a template refers to (`none`: not a valid template) -/",
"def tplNames (s : Str) : Option (List Str) := (tpl s).map tplVars","",
"/-- the variables a note's summary and text refer to, as a table -/","def NoteId.needs : NoteId → List Str"]
rest=0
for k in S:
    v=re.sub("%%","",S[k]+" "+T[k]); names=[]
    for n in re.findall(r"%\(([^)]*)\)s",v):
        if n not in names: names.append(n)
    if names: o.append(f"  | .{k} => ["+", ".join(f'str "{n}"' for n in names)+"]")
o.append("  | _ => []")
o+=["","/-- every class is in the list -/","theorem NoteId.mem_all (c : NoteId) : c ∈ NoteId.all := by",
"  have h : NoteId.all[c.ctorIdx]? = some c := by cases c <;> rfl",
"  exact List.mem_of_getElem? h","",
"/-- the table is right: every template is well formed and refers only to the variables listed -/",
"theorem NoteId.needs_all : (NoteId.all.all fun c =>",
"    match tplNames c.summary, tplNames c.text with",
"    | some a, some b => (a ++ b).all (c.needs.contains ·)",
"    | _, _ => false) = true := by decide +kernel","","end HL",""]
open('/verif/lean/Verif/NoteNeeds.lean','w').write("\n".join(o))
# which classes are defined under field/
t=open('/verif/lean/Verif/NoteTable.lean').read()
mods=re.findall(r"  /-- (\S+):\d+ -/\n  \| (\w+)",t)
L=open('/verif/lean/Verif/NoteNeeds.lean').read()
ORIG={"cache.py":"cache","charset.py":"charset","content_encoding.py":"encoding","content_type.py":"contentType","message.py":"message","status.py":"status"}
add="/-- where a note class is defined: the `field` package (`line`: the classes added by\nthe code common to all field lines; `frame`: by the code common to all fields of a kind), or one of the modules cache.py, charset.py,\ncontent_encoding.py, content_type.py, message.py, status.py -/\ninductive Origin where\n  | line | frame | field | cache | charset | encoding | contentType | message | status\n  deriving DecidableEq, Repr\n\n/-- the module that defines the class -/\ndef NoteId.origin : NoteId → Origin\n"
for f,o in ORIG.items():
    l=[n for m,n in mods if m==f]
    assert l,f
    add+="".join("  | "+" | ".join("."+x for x in l[i:i+6])+"\n" for i in range(0,len(l),6))[:-1]+f" => .{o}\n"
for o,l in [("line","FIELD_TOO_LARGE FIELD_SECTION_TOO_LARGE FIELD_NAME_ENCODING FIELD_VALUE_ENCODING FIELD_NAME_BAD_SYNTAX RESPONSE_HDR_IN_REQUEST REQUEST_HDR_IN_RESPONSE FIELD_DEPRECATED".split()),
            ("frame","SINGLE_HEADER_REPEAT BAD_SYNTAX BAD_SYNTAX_DETAILED STRUCTURED_FIELD_PARSE_ERROR BAD_JSON DUPLICATE_KEY".split())]:
    assert all(any(n==x and m.startswith("field/") for m,n in mods) for x in l)
    add+="".join("  | "+" | ".join("."+x for x in l[i:i+5])+"\n" for i in range(0,len(l),5))[:-1]+f" => .{o}\n"
assert all(m.startswith("field/") or m in ORIG for m,n in mods)
add+="  | _ => .field\n\n"
L=L.replace("/-- every class is in the list -/",add+"/-- every class is in the list -/")
open('/verif/lean/Verif/NoteNeeds.lean','w').write(L)
