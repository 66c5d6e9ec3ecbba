import json,re,ast
from fractions import Fraction
from decimal import Decimal
import datetime
tests={(t['file'],t['cls']):t for t in json.load(open('tests.json'))}
idx=[tuple(x) for x in json.load(open('index.json'))]
class Tok(str): pass
def S(l): return ''.join(map(chr,l))
ns={'S':S,'B':lambda l:bytes(l),'T':lambda l:S(l),'D':S,'N':lambda a,b:Fraction(a,b),'L':list,'Tu':tuple,'Set':lambda l:set(l),'Di':lambda l:dict(l),'Date':lambda i:datetime.datetime.fromtimestamp(i,datetime.timezone.utc),'Rel':lambda:'REL','O':lambda s,h,p:('O',S(s),S(h),p),'None':None}
def norm(x):
    if isinstance(x,(Decimal,float)): return Fraction(str(x))
    if isinstance(x,list): return [norm(y) for y in x]
    if isinstance(x,tuple): return tuple(norm(y) for y in x)
    if isinstance(x,dict): return {norm(k):norm(v) for k,v in x.items()}
    return x
ens={'Token':str,'Decimal':Decimal,'datetime':datetime.datetime,'timezone':datetime.timezone,'OriginValue':lambda s,h,p:('O',s,h,p),'http_sf':type('x',(),{'Token':str})}
class D(dict):
    def __missing__(s,k): return lambda *a,**kw: tuple(a)+tuple(kw.values())
d=D(ens)
bad=0
for (k,line) in zip(idx,open('out.txt').read().splitlines()):
    t=tests[k]; _,r,w,r2,v,notes,rend=line.split('|')
    got=set(re.findall(r'HL\.NoteId\.(\w+)',notes))
    exp=set(re.findall(r'\w+',t['attrs'].get('expected_notes','[]')))
    try: ev=norm(eval(t['attrs'].get('expected_out','[]'),{'__builtins__':{'set':set,'list':list,'dict':dict}},d))
    except Exception as e: ev='EVALERR '+str(e)
    gv=norm(eval(v,ns)) if v!='MISSING' else v
    ok=True; why=[]
    if {r,w,r2}!={'ok'}: why.append((r,w,r2))
    if got!=exp: why.append(('notes extra',got-exp,'missing',exp-got))
    if ev!=gv: why.append(('val',ev,gv))
    if any(x!='3' for x in re.findall(r'\d',rend)): why.append(('render',rend))
    if why: bad+=1; print(k,t['attrs'].get('inputs'),*why)
print('bad',bad,'of',len(idx))
