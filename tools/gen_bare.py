#!/usr/bin/env python3
"""The variables each note text shows outside code, as Lean tables (checked against the templates by
Props/MarkupThm.lean): those the linter makes itself (`bare`), and those taken from the message or a library (`exposed`)."""
import re
s=open('/verif/lean/Verif/NoteTable.lean').read()
def table(name):
    a=s.index(f"def {name} : NoteId")
    out={}
    for l in s[a:].split("\n")[1:]:
        m=re.match(r'  \| (\w+) => str "(.*)"$',l)
        if not m: break
        out[m[1]]=m[2].encode().decode('unicode_escape')
    return out
T=table("text")
UNFENCED=["ENCODING_UNWANTED","STRUCTURED_FIELD_PARSE_ERROR"]
EXPOSED={"CACHE_STATUS":["status"],"PROXY_STATUS":["status"],"ACCEPT_CH_MISSING_VARY":["missing_fields"],
 "BAD_JSON":["error"],"DUPLICATE_KEY":["key","context"],"NEL_CONFIGURED":["endpoints"],
 "DEPRECATION_PAST":["date"],"DEPRECATION_FUTURE":["date"],"BAD_SYNTAX":["ref_uri"],"BAD_SYNTAX_DETAILED":["ref_uri"],
 "FIELD_DEPRECATED":["deprecation_ref"],"PARAM_STAR_BAD":["param"],"CC_WRONG_MESSAGE":["message_type"],
 "CORS_PREFLIGHT_ONLY":["headers"]}
def bare(s):
    ins=False;nl=False;start=0;block=False;b=[]
    for m in re.finditer(r'%\((\w+)\)s|%%|(?s:.)',s):
        if m.group(1):
            if not ins and not block and m.group(1) not in b: b.append(m.group(1))
            nl=False; start=None; continue
        c=m.group(0)[0]
        if c=='\n':
            if block: block=False; start=0
            elif nl: ins=False; start=0
            nl=True; continue
        if start is not None and not block:
            if c==' ':
                start+=1
                if start==4: block=True
                continue
            start=None
        if c==' ': continue
        nl=False
        if c=='`' and not block: ins=not ins
    return b
def rows(d):
    return "".join(f"  | .{k} => ["+", ".join(f'str "{n}"' for n in v)+"]\n" for k,v in d.items() if v)+"  | _ => []\n"
B={k:[x for x in bare(T[k]) if x not in EXPOSED.get(k,[])] for k in T if k not in UNFENCED}
o="""import Verif.Note

/-!
GENERATED by tools/gen_bare.py: the variables each note class's text shows outside code.
-/

namespace HL

/-- variables shown outside code that the linter makes up itself: numbers, times, fixed texts, and lists whose items
it puts into code spans -/
def NoteId.bare : NoteId → List Str
"""+rows(B)+"""
/-- variables shown outside code that come from the message, from a library, or from a table of fields -/
def NoteId.exposed : NoteId → List Str
"""+rows(EXPOSED)+"""
/-- the classes with a code span that is never closed, or whose text ends in a block built by the linter -/
def unfenced : List NoteId := ["""+", ".join("."+x for x in UNFENCED)+"""]

end HL
"""
open('/verif/lean/Verif/NoteBare.lean','w').write(o)
