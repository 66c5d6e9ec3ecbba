import json,re,subprocess,sys,ast,os
from decimal import Decimal
from fractions import Fraction
from urllib.parse import urlsplit,urljoin,unquote
import email.utils
sys.path.insert(0,'/tmp/diff')
import sf
tests=json.load(open('/tmp/diff/tests.json'))
def S(s): # str/bytes -> Lean list
    if isinstance(s,bytes): return '['+','.join(str(b) for b in s)+']'
    return '['+','.join(str(ord(c)) for c in s)+']'
def V(v):
    if v is None: return '(Val.none)'
    if v is True: return '(Val.bool true)'
    if v is False: return '(Val.bool false)'
    if isinstance(v,int): return f'(Val.int ({v}))'
    if isinstance(v,float): v=Fraction(str(v))
    if isinstance(v,Decimal): v=Fraction(v)
    if isinstance(v,Fraction): return f'(Val.num (({v.numerator} : Rat)/{v.denominator}))'
    if isinstance(v,str): return f'(Val.str {S(v)})'
    if isinstance(v,bytes): return f'(Val.bytes {S(v)})'
    if isinstance(v,tuple) and len(v)==2 and v[0]=='token': return f'(Val.token {S(v[1])})'
    if isinstance(v,tuple) and len(v)==2 and v[0]=='date': return f'(Val.date ({v[1]}))'
    if isinstance(v,tuple): return '(Val.tuple ['+','.join(map(V,v))+'])'
    if isinstance(v,list): return '(Val.list ['+','.join(map(V,v))+'])'
    if isinstance(v,(set,frozenset)): return '(Val.set ['+','.join(map(V,sorted(v)))+'])'
    if isinstance(v,dict): return '(Val.dict ['+','.join(f'(Val.tuple [{V(k)},{V(x)}])' for k,x in v.items())+'])'
    raise Exception(repr(v))
answers={}
def uns(x): return ''.join(map(chr,json.loads(x)))
def answer(q):
    f,*a=q.split('|'); a=[uns(x) for x in a]
    try:
        if f=='urlsplit':
            u=urlsplit(a[0]); return f'.ok ⟨{S(u.scheme)},{S(u.netloc)},{S(u.path)},{S(u.query)},{S(u.fragment)}⟩'
        if f=='urljoin': return f'.ok {S(urljoin(a[0],a[1]))}'
    except ValueError: return '.error .valueError'
    if f=='unquote': return S(unquote(a[0]))
    if f=='parsedate':
        d=email.utils.parsedate(a[0])
        return 'none' if d is None else f'some ({d[0]},{d[1]},{d[2]},{d[3]},{d[4]},{d[5]})'
    if f=='json':
        try: return f'.ok {V(json.loads(a[0]))}'
        except json.JSONDecodeError as e: return f'.decodeError {S(str(e))}'
    if f=='sf':
        r=sf.parse(a[0],a[1]); D=lambda ds:'['+','.join(f'({S(k)},{S(c)})' for k,c in ds)+']'
        if r[0]=='ok': return f'.ok {V(r[1])} {D(r[2])}'
        return f'.sfError {S(r[1])} (some {r[2]}) {D(r[3])}'
    raise Exception(q)
def table():
    out=''
    by={}
    for q,a in answers.items():
        f,*args=q.split('|'); by.setdefault(f,[]).append((args,a))
    for f,ty,n in [('urlsplit','Except Exn UrlParts',1),('urljoin','Except Exn Str',2),('unquote','Str',1),('parsedate','Option (Int × Int × Int × Int × Int × Int)',1),('json','JsonResult',1),('sf','SfResult',2)]:
        kt='Str' if n==1 else 'Str × Str'
        ents=',\n'.join('(('+','.join(args)+') , '+f'({a})'+')' for args,a in by.get(f,[]))
        out+=f'def t_{f} : List (({kt}) × ({ty})) := [{ents}]\n'
    return out
class Ns(dict):
    def __missing__(self,k):
        raise NameError(k)
def ctx(t):
    setup=[];reqsetup=['GET']
    code='\n'.join(t['methods'].values())
    m='m'; lines=[]
    r=re.search(r"message\.status_code = (\d+)",code)
    mods=[];rmods=[]
    if r: mods.append(f'statusCode := some {r[1]}')
    r=re.search(r"message\.start_time = (\d+)",code)
    if r: mods.append(f'startTime := some {r[1]}')
    r=re.search(r"message\.base_uri = '(.*?)'",code)
    if r: mods.append(f'baseUri := {S(r[1])}')
    r=re.search(r"message\.method = '(.*?)'",code)
    if r: mods.append(f'method := some {S(r[1])}')
    if 'message.caching' in code: mods.append('caching := some {}')
    parsed=[]
    for k,v in re.findall(r"message\.headers\.parsed\['(.*?)'\] = (.*)",code): parsed.append((k,eval(v)))
    if parsed: mods.append('headers := {isTrailer := false, parsed := ['+','.join(f'({S(k)},{V(v)})' for k,v in parsed)+']}')
    rm=re.search(r"request\.method = '(.*?)'",code)
    rmods.append('method := some '+S(rm[1] if rm else 'GET'))
    r=re.search(r"request\.uri = '(.*?)'",code)
    if r: rmods.append('uri := some '+S(r[1]))
    rh=re.search(r"request\.headers\.process\((.*)\)",code)
    mh=re.search(r"message\.headers\.process\((.*)\)",code)
    H=lambda r:'['+','.join(f'({S(a)},{S(b)})' for a,b in eval(r[1]))+']' if r else '[]'
    return mods,rmods,H(rh),H(mh),code
def main():
    os.environ['PYTHONHASHSEED']='0'
    exp=[]; lean_tests=[]
    for t in tests:
        a=t['attrs']
        if any(k.startswith('test_') for k in t['methods']): pass
        try:
            inputs=eval(a['inputs'],{'MAX_SERVER_LENGTH':None or 300,'MAX_SET_COOKIE_VALUE_LENGTH':4096}); name=eval(a['name'])
        except Exception as e: print('skip',t['cls'],e); continue
        mods,rmods,rh,mh,code=ctx(t)
        lean_tests.append(f"⟨{S(name)},[{','.join(S(x) for x in inputs)}],(fun m => {{m with {', '.join(mods)}}}),(fun m => {{m with {', '.join(rmods)}}}),{rh},{mh}⟩".replace('{m with }','m'))
        exp.append(t)
    json.dump([ (t['file'],t['cls']) for t in exp],open('/tmp/diff/index.json','w'))
    tmpl=open('/tmp/diff/Tmpl.lean').read()
    chunks='\n'.join(f'def tc{i} : List T := [{(","+chr(10)).join(lean_tests[i:i+40])}]' for i in range(0,len(lean_tests),40))
    chunks+='\ndef tests : List T := '+' ++ '.join(f'tc{i}' for i in range(0,len(lean_tests),40))
    while True:
        open('/tmp/diff/Diff.lean','w').write(tmpl.replace('--TABLE',table()).replace('--TESTS',chunks))
        p=subprocess.run(['lake','env','lean','--run','/tmp/diff/Diff.lean'],cwd='/verif/lean',capture_output=True,text=True)
        if 'error' in p.stdout[:3000] and not p.stdout.startswith('R|'): print(p.stdout[:3000]); sys.exit(1)
        qs={l[2:] for l in p.stderr.splitlines() if l.startswith('Q ')}-set(answers)
        if p.returncode!=0: print(p.stderr[-2000:],p.stdout[-500:]); sys.exit(1)
        print('queries',len(qs))
        if not qs: break
        for q in qs: answers[q]=answer(q)
    open('/tmp/diff/out.txt','w').write(p.stdout)
main()
