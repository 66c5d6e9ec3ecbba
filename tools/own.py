import re,glob
src=""
files=sorted(glob.glob('/verif/lean/Verif/Fields/*.lean'))+['/verif/lean/Verif/Utils.lean']
defs={}
for f in files:
    s=open(f).read()
    # strip comments
    s=re.sub(r'/-.*?-/','',s,flags=re.S); s=re.sub(r'--.*','',s)
    parts=re.split(r'\n(?=def |structure |inductive |abbrev )',s)
    for p in parts:
        m=re.match(r'def ([^\s:({\[]+)',p)
        if m: defs[m.group(1)]=p
ids=set(re.findall(r'^  \| ([A-Z][A-Za-z_0-9]*)',open('/verif/lean/Verif/NoteTable.lean').read(),re.M))
def toks(n):
    return re.findall(r'\.?[A-Za-z_][A-Za-z_0-9.]*',defs[n])
memo={}
def classes(n,seen=()):
    if n in memo: return memo[n]
    out=[]
    for t in toks(n)[2:]:
        if t.startswith('.') and t[1:] in ids:
            if t[1:] not in out: out.append(t[1:])
        elif t in defs and t!=n and t not in seen:
            for x in classes(t,seen+(n,)):
                if x not in out: out.append(x)
    memo[n]=out
    return out
disp=open('/verif/lean/Verif/Fields.lean').read()
def table(fn):
    a=disp.index('def Handler.'+fn); b=disp.find('\ndef ',a+5); 
    t={}
    for m in re.finditer(r'\n  \| \.(\w+) =>(.*?)(?=\n  \||\n\n|\Z)',disp[a:b],re.S):
        fs=[x for x in re.findall(r'F\.([\w.]+)',m.group(2)) if x in defs]
        cl=[]
        for x in re.findall(r'\.([A-Z][A-Z_0-9]+\w*)',m.group(2)):
            if x in ids: cl.append(x)
        for f in fs:
            for c in classes(f):
                if c not in cl: cl.append(c)
        t[m.group(1)]=(fs,cl)
    return t
if __name__=='__main__':
    for fn in ['parse','evaluate','postCheck']:
        print(fn)
        for k,(fs,cl) in table(fn).items(): print(' ',k,fs,cl)
