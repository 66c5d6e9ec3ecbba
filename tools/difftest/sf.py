# minimal RFC 9651 parser, producing tagged values
import base64,re
from decimal import Decimal
class E(Exception): pass
class P:
    def __init__(s,t,dups): s.t=t; s.i=0; s.dups=dups
    def peek(s): return s.t[s.i] if s.i<len(s.t) else ''
    def sp(s):
        while s.peek()==' ': s.i+=1
    def ows(s):
        while s.peek() in (' ','\t') and s.peek(): s.i+=1
    def key(s):
        m=re.compile(r'[a-z*][a-z0-9_\-.*]*').match(s.t,s.i)
        if not m: raise E('key')
        s.i=m.end(); return m.group()
    def bare(s):
        c=s.peek()
        if c=='?':
            v=s.t[s.i+1:s.i+2]; s.i+=2
            if v not in('0','1'): raise E('bool')
            return v=='1'
        if c=='"':
            s.i+=1; o=''
            while True:
                c=s.peek()
                if not c: raise E('str')
                s.i+=1
                if c=='\\':
                    d=s.peek(); s.i+=1
                    if d not in('"','\\') or not d: raise E('esc')
                    o+=d
                elif c=='"': return o
                elif not 32<=ord(c)<127: raise E('chr')
                else: o+=c
        if c==':':
            j=s.t.find(':',s.i+1)
            if j<0: raise E('bin')
            b=s.t[s.i+1:j]; s.i=j+1
            return base64.b64decode(b+'='*(-len(b)%4))
        if c=='@':
            s.i+=1; v=s.bare()
            if type(v) is not int: raise E('date')
            return ('date',v)
        if c=='%': raise E('disp')
        m=re.compile(r'-?\d+(\.\d+)?').match(s.t,s.i)
        if m:
            s.i=m.end()
            return Decimal(m.group()) if '.' in m.group() else int(m.group())
        m=re.compile(r"[A-Za-z*][!#$%&'*+\-.^_`|~0-9A-Za-z:/]*").match(s.t,s.i)
        if m: s.i=m.end(); return ('token',m.group())
        raise E('bare')
    def params(s):
        d={}
        while s.peek()==';':
            s.i+=1; s.sp(); k=s.key(); v=True
            if s.peek()=='=': s.i+=1; v=s.bare()
            if k in d: s.dups.append((k,'parameter'))
            d[k]=v
        return d
    def item(s): v=s.bare(); return (v,s.params())
    def il(s):
        if s.peek()=='(':
            s.i+=1; l=[]
            while True:
                s.sp()
                if s.peek()==')': s.i+=1; return (l,s.params())
                if not s.peek(): raise E('il')
                l.append(s.item())
                if s.peek() not in(' ',')'): raise E('il2')
        return s.item()
def parse(tl,text):
    dups=[]; p=P(text,dups)
    try:
        p.sp()
        if tl=='item': v=p.item()
        elif tl=='list':
            v=[]
            while p.peek():
                v.append(p.il()); p.ows()
                if not p.peek(): break
                if p.peek()!=',': raise E('comma')
                p.i+=1; p.ows()
                if not p.peek(): raise E('trailing')
        else:
            v={}
            while p.peek():
                k=p.key()
                if k in v: dups.append((k,'dictionary'))
                if p.peek()=='=': p.i+=1; x=p.il()
                else: x=(True,p.params())
                v[k]=x; p.ows()
                if not p.peek(): break
                if p.peek()!=',': raise E('comma')
                p.i+=1; p.ows()
                if not p.peek(): raise E('trailing')
        p.sp()
        if p.peek(): raise E('extra')
        return ('ok',v,dups)
    except E as e:
        return ('err',str(e),p.i,dups)
