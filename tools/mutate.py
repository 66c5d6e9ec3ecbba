#!/usr/bin/env python3
"""Seeded-bug testing: apply each edit of tools/mutations.py to a scratch copy of the Lean project, rebuild, and log
which theorems no longer check.  usage: mutate.py [id ...]   (default: every mutation not yet in seeded/LOG.jsonl)"""
import json, os, re, shutil, subprocess, sys, time
ROOT='/verif'; SCR='/tmp/mut'
sys.path.insert(0, ROOT+'/tools')
from mutations import MUTATIONS
LOG=ROOT+'/seeded/LOG.jsonl'
TARGETS=' '.join(a for a in sys.argv[1:] if a.startswith('Verif'))  # build only these modules (default: all)
def sh(c): return subprocess.run(c, shell=True, capture_output=True, text=True)
def reset():
    os.makedirs(SCR+'/lean', exist_ok=True)
    sh(f"rsync -a --delete /tmp/mutbase/ {SCR}/lean/") if shutil.which('rsync') else sh(f"rm -rf {SCR}/lean && cp -a /tmp/mutbase {SCR}/lean")
DECL=re.compile(r'^(?:@\[[^\]]*\] *)?(?:private |protected |noncomputable )*(theorem|example|def|instance|abbrev|macro)\b ?([^\s:({\[]*)')
def decl_at(path, line):
    ls=open(path).read().split('\n')
    for i in range(min(line,len(ls))-1,-1,-1):
        m=DECL.match(ls[i])
        if m: return (m.group(2) or f"example:{i+1}")
    return '?'
def downstream(failed_mods):
    imps={}
    for d,_,fs in os.walk(SCR+'/lean/Verif'):
        for f in fs:
            if f.endswith('.lean'):
                p=os.path.join(d,f); mod=p[len(SCR+'/lean/'):-5].replace('/','.')
                imps[mod]=re.findall(r'^import (Verif\S*)',open(p).read(),re.M)
    bad=set(failed_mods); ch=True
    while ch:
        ch=False
        for m,i in imps.items():
            if m not in bad and any(x in bad for x in i): bad.add(m); ch=True
    return bad-set(failed_mods)
def blows_up(text, limit_kb=5000000):
    """does checking this text need more memory than a correct file does?"""
    f=SCR+'/Prefix.lean'; open(f,'w').write(text)
    p=subprocess.Popen(f"cd {SCR}/lean && exec lake env lean {f}", shell=True, stdout=subprocess.DEVNULL, stderr=subprocess.DEVNULL, start_new_session=True)
    while p.poll() is None:
        time.sleep(0.3)
        rss=sum(int(x) for x in sh(f"ps -o rss= -g {p.pid}").stdout.split())
        if rss>limit_kb:
            os.killpg(p.pid,9); p.wait(); return True
    return p.returncode in (137,-9)
def culprit(path):
    """the first declaration of a module at which the checker runs out of memory"""
    ls=open(path).read().split('\n')
    starts=[i for i,l in enumerate(ls) if DECL.match(l)]
    ends=starts[1:]+[len(ls)]
    lo,hi=0,len(ends)-1
    while lo<hi:
        mid=(lo+hi)//2
        if blows_up('\n'.join(ls[:ends[mid]])): hi=mid
        else: lo=mid+1
    open(SCR+'/Prefix.lean','w').write('\n'.join(ls[:starts[lo]]))
    before=sh(f"cd {SCR}/lean && lake env lean {SCR}/Prefix.lean").stdout
    return {decl_at(path, starts[lo]+1)} | {decl_at(path,int(l)) for l in re.findall(r'Prefix\.lean:(\d+):\d+: error',before) if int(l)<=starts[lo]-1}
def run(m):
    reset()
    p=f"{SCR}/lean/Verif/{m['file']}"
    s=open(p).read()
    if s.count(m['old'])!=m.get('count',1): return {'id':m['id'],'error':f"old text occurs {s.count(m['old'])} times"}
    open(p,'w').write(s.replace(m['old'],m['new']))
    t=time.time()
    r=sh(f"cd {SCR}/lean && nice -n 10 lake build {TARGETS} 2>&1")
    out=r.stdout
    fails={}
    for f,l in re.findall(r'^error: (Verif/\S+\.lean):(\d+):\d+',out,re.M):
        fails.setdefault(f,set()).add(decl_at(f"{SCR}/lean/{f}",int(l)))
    for mod in re.findall(r'^- (Verif\S*)$',out,re.M):
        f=mod.replace('.','/')+'.lean'
        if f not in fails and re.search(r'Building '+re.escape(mod)+r' .*\n(?:trace:.*\n)?error: Lean exited with code 137',out):
            fails[f]=culprit(f"{SCR}/lean/{f}")
    names=sorted(x for v in fails.values() for x in v)
    mods=[f[:-5].replace('/','.') for f in fails]
    return {'id':m['id'],'definition':m['definition'],'edit':m['edit'],'claim':m['claim'],'theorems_failed':names,
      'failed_in':sorted(mods),'not_reached':len(downstream(mods)),'theorems_tightened':[], **({'only_built':TARGETS} if TARGETS else {}), 'seconds':round(time.time()-t),
      'built': r.returncode==0, 'tail': out[-600:]}
done=set()
if os.path.exists(LOG):
    for l in open(LOG):
        if l.strip(): done.add(json.loads(l).get('id'))
want=[a for a in sys.argv[1:] if not a.startswith('Verif')]
for m in MUTATIONS:
    if (want and m['id'] not in want) or (not want and m['id'] in done): continue
    r=run(m)
    if not r.get('built') and not r.get('theorems_failed') and 'error' not in r: r['error']='the build was cut short: '+r.pop('tail')
    print(json.dumps(r),flush=True)
    r.pop('tail',None)
    if 'error' not in r:
        with open(LOG,'a') as f: f.write(json.dumps(r)+'\n')
