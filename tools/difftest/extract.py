import ast,glob,os,sys,json
tests=[];skipped=[]
for f in sorted(glob.glob('/repo/httplint/field/parsers/*.py')+['/repo/httplint/field/deprecated.py','/repo/httplint/field/unnecessary.py']):
    src=open(f).read(); tree=ast.parse(src)
    consts={}
    for node in tree.body:
        if isinstance(node,ast.Assign) and isinstance(node.targets[0],ast.Name):
            consts[node.targets[0].id]=node.value
    classes={}
    for c in tree.body:
        if not isinstance(c,ast.ClassDef): continue
        bases=[ast.unparse(b) for b in c.bases]
        attrs={}; methods={}
        istest=any(b.startswith('FieldTest') for b in bases)
        for b in bases:
            if b in classes and classes[b]['istest']:
                istest=True; attrs.update(classes[b]['attrs']); methods.update(classes[b]['methods'])
        for n in c.body:
            if isinstance(n,ast.Assign): attrs[n.targets[0].id]=n.value
            elif isinstance(n,ast.AnnAssign) and n.value is not None: attrs[n.target.id]=n.value
            elif isinstance(n,ast.FunctionDef): methods[n.name]=n
        classes[c.name]=dict(istest=istest,attrs=attrs,methods=methods)
        if istest:
            tests.append(dict(file=os.path.basename(f),cls=c.name,line=c.lineno,
              attrs={k:ast.unparse(v) for k,v in attrs.items()},
              methods={k:ast.unparse(v) for k,v in methods.items()}))
json.dump(tests,open('/tmp/diff/tests.json','w'),indent=1)
print(len(tests), sum(1 for t in tests if t['methods']))
import collections
print(collections.Counter(k for t in tests for k in t['methods']))
print(collections.Counter(k for t in tests for k in t['attrs']))
for t in tests:
    if t['methods']: print(t['file'],t['cls'],list(t['methods'].items()))
