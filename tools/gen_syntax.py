#!/usr/bin/env python3
"""Translate /repo/httplint/syntax/*.py (read as text, never imported) into Lean regex terms.

Each module-level assignment is evaluated as text (string literals, f-strings, names, list_rule),
parsed with Python's re.VERBOSE rules, and printed as a Lean `RE`.  Sub-expressions that coincide
with an already emitted definition are printed by name (this only affects readability).
"""
import ast, sys, os
SRC = "/repo/httplint/syntax"
OUT = "/verif/lean/Verif/Syntax.lean"
MODS = ["rfc5234","rfc3986","rfc5322","rfc5646","rfc5987","rfc6838","rfc9110","rfc8288","rfc9111","rfc9112","rfc9651"]

class ListRule:
    def __init__(s, e, m=None): s.element=e; s.minimum=m
    def __str__(s):
        OWS = ENV["rfc9110"]["OWS"]
        e=s.element
        if s.minimum == 1: return f"(?: {e} (?: {OWS} , {OWS} {e} )* )"
        if s.minimum and s.minimum>1: return f"(?: {e} (?: {OWS} , {OWS} {e} ){{{s.minimum-1},}} )"
        return f"(?: {e} (?: {OWS} , {OWS} {e} )* )?"
ENV = {}

def ev(n, env):
    if isinstance(n, ast.Constant): return n.value
    if isinstance(n, ast.JoinedStr):
        return "".join(str(ev(v, env)) for v in n.values)
    if isinstance(n, ast.FormattedValue): return str(ev(n.value, env))
    if isinstance(n, ast.Name): return env[n.id]
    if isinstance(n, ast.BinOp) and isinstance(n.op, ast.Add): return ev(n.left,env)+ev(n.right,env)
    if isinstance(n, ast.Call) and isinstance(n.func, ast.Name) and n.func.id=="list_rule":
        a=[ev(x,env) for x in n.args]
        a[0]=str(a[0])
        return ListRule(*a)
    raise Exception(ast.dump(n))

# ---- regex parser (subset of sre, VERBOSE) ; AST as tuples
WS=" \t\n\r\v\f"
class P:
    def __init__(s, t, where): s.t=t; s.i=0; s.where=where
    def skip(s):
        while s.i<len(s.t):
            c=s.t[s.i]
            if c in WS: s.i+=1
            elif c=="#":
                while s.i<len(s.t) and s.t[s.i]!="\n": s.i+=1
            else: break
    def alt(s):
        items=[s.seq()]
        while s.i<len(s.t) and s.t[s.i]=="|":
            s.i+=1; items.append(s.seq())
        return items[0] if len(items)==1 else ("alt",)+tuple(items)
    def seq(s):
        out=[]
        while True:
            s.skip()
            if s.i>=len(s.t) or s.t[s.i] in "|)": break
            c=s.t[s.i]
            if c in "*+?": raise Exception("nothing to repeat "+s.where)
            a=s.atom()
            s.skip2()
            q=s.quant()
            if q:
                lo,hi=q
                # python sre_parse looks at source.next directly after quantifier
                lazy=False
                if s.i<len(s.t) and s.t[s.i]=="?": lazy=True; s.i+=1; print("LAZY in",s.where,file=sys.stderr)
                elif s.i<len(s.t) and s.t[s.i]=="+": raise Exception("possessive "+s.where)
                a=("rep",lo,hi,lazy,a)
                s.skip2()
                if s.quant(): raise Exception("multiple repeat "+s.where)
            out.append(a)
        if len(out)==1: return out[0]
        return ("seq",)+tuple(out)
    def skip2(s): s.skip()
    def quant(s):
        if s.i>=len(s.t): return None
        c=s.t[s.i]
        if c=="*": s.i+=1; return (0,None)
        if c=="+": s.i+=1; return (1,None)
        if c=="?": s.i+=1; return (0,1)
        if c=="{":
            j=s.i+1; lo=""; hi=""
            while j<len(s.t) and s.t[j].isdigit(): lo+=s.t[j]; j+=1
            if j<len(s.t) and s.t[j]==",":
                j+=1
                while j<len(s.t) and s.t[j].isdigit(): hi+=s.t[j]; j+=1
                r=(int(lo or 0), int(hi) if hi else None)
            else:
                r=(int(lo),int(lo)) if lo else None
            if r is None or j>=len(s.t) or s.t[j]!="}": return None
            s.i=j+1
            return r
        return None
    def esc(s):
        # at char after backslash
        c=s.t[s.i]; s.i+=1
        if c=="x":
            v=int(s.t[s.i:s.i+2],16); s.i+=2; return v
        if c=="t": return 9
        if c.isalnum(): raise Exception("escape "+c)
        return ord(c)
    def atom(s):
        c=s.t[s.i]
        if c=="(":
            if s.t[s.i:s.i+3]!="(?:": raise Exception("group "+s.where)
            s.i+=3
            r=s.alt()
            assert s.t[s.i]==")", s.where
            s.i+=1
            return r
        if c=="[":
            s.i+=1; neg=False
            if s.t[s.i]=="^": neg=True; s.i+=1
            rs=[]
            first=True
            while s.t[s.i]!="]" or first:
                first=False
                if s.t[s.i]=="\\": s.i+=1; a=s.esc()
                else: a=ord(s.t[s.i]); s.i+=1
                if s.t[s.i]=="-" and s.t[s.i+1]!="]":
                    s.i+=1
                    if s.t[s.i]=="\\": s.i+=1; b=s.esc()
                    else: b=ord(s.t[s.i]); s.i+=1
                    rs.append((a,b))
                else: rs.append((a,a))
            s.i+=1
            return ("cls",neg,tuple(rs))
        s.i+=1
        if c=="\\":
            if s.t[s.i]=="s": s.i+=1; return ("ws",)
            return ("ch",s.esc())
        if c==".": return ("any",)
        if c in "^$": raise Exception("anchor "+s.where)
        return ("ch",ord(c))

NAMES={}  # ast -> lean name
def lean(a, top=False):
    if not top and a in NAMES: return NAMES[a]
    k=a[0]
    if k=="ch":
        c=chr(a[1])
        return f"(ch {a[1]})"
    if k=="any": return "anyc"
    if k=="ws": return "RE.ws"
    if k=="cls":
        rs=", ".join(f"({x},{y})" for x,y in a[2])
        return f"({'ncls' if a[1] else 'cls'} [{rs}])"
    if k=="seq":
        if len(a)==1: return "RE.eps"
        # group literal runs
        parts=[]; run=[]
        def flush():
            if len(run)>=2: parts.append('(lit (str "'+"".join(chr(x) for x in run).replace("\\","\\\\").replace('"','\\"')+'"))')
            elif run: parts.append(f"(ch {run[0]})")
            run.clear()
        for x in a[1:]:
            if x[0]=="ch" and 32<=x[1]<127: run.append(x[1])
            else: flush(); parts.append(lean(x))
        flush()
        if len(parts)==1: return parts[0]
        return "(seqs ["+", ".join(parts)+"])"
    if k=="alt": return "(alts ["+", ".join(lean(x) for x in a[1:])+"])"
    if k=="rep":
        _,lo,hi,lazy,b=a
        h="none" if hi is None else f"(some {hi})"
        if lazy: return f"(RE.rep {lo} {h} true {lean(b)})"
        if (lo,hi)==(0,None): return f"(star {lean(b)})"
        if (lo,hi)==(1,None): return f"(plus {lean(b)})"
        if (lo,hi)==(0,1): return f"(opt {lean(b)})"
        return f"(RE.rep {lo} {h} false {lean(b)})"
    raise Exception(k)

out=["import Verif.Regex","","/-!","GENERATED by tools/gen_syntax.py from the text of /repo/httplint/syntax/*.py (which is read, not run).",
"Every definition cites the file and line of the assignment it models.  `list_rule` definitions",
"(rfc9110.py:60-97) yield two terms: `X` (the whole list, `str(list_rule)`) and `X_element`.","-/","","set_option maxRecDepth 4000","",
"namespace HL.Syntax","open HL RE",""]
for m in MODS:
    tree=ast.parse(open(f"{SRC}/{m}.py").read())
    env={}; ENV[m]=env
    out.append(f"namespace {m}")
    for st in tree.body:
        if isinstance(st, ast.ImportFrom) and st.level==1:
            for al in st.names: 
                if al.name!="list_rule": env[al.asname or al.name]=ENV[st.module][al.name]
        elif isinstance(st, ast.Assign):
            nm=st.targets[0].id
            if nm=="SPEC_URL": env[nm]=ev(st.value,env); continue
            v=ev(st.value, env); env[nm]=v
            if isinstance(v,int):
                out.append(f"/-- syntax/{m}.py:{st.lineno} -/\ndef {nm} : Nat := {v}")
                continue
            lname=nm.lstrip("_")
            todo=[(lname,str(v))]
            if isinstance(v,ListRule): todo=[(lname+"_element",v.element),(lname,str(v))]
            for ln,txt in todo:
                p=P(txt,f"{m}.{nm}")
                a=p.alt(); p.skip(); assert p.i==len(txt),(nm,p.i,txt[p.i:])
                # note grouping context: a top-level alternation used ungrouped is re-parsed in context
                out.append(f"/-- syntax/{m}.py:{st.lineno} `{nm}` -/\ndef {ln} : RE := {lean(a)}")
                if a not in NAMES and a[0] not in ("ch",): NAMES[a]=f"{m}.{ln}"
    out.append(f"end {m}\n")
out.append("end HL.Syntax")
open(OUT,"w").write("\n".join(out)+"\n")
