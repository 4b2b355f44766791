"""Transcribes the YAML configurations shipped with the code into Lean terms (Verif/Model/Shipped.lean).
Handles the subset of YAML these files use: block mappings and sequences, flow sequences of numbers, scalars."""
import re
FILES = [("example1","examples/example1.yaml"),("example2","examples/example2.yaml"),("example3","examples/example3.yaml"),
 ("example4","examples/example4.yaml"),("friableSand","examples/friable_sand_example.yaml"),
 ("patchyCement","examples/patchy_cement_example.yaml"),("carbonDioxide","examples/carbon_dioxide_example.yaml"),
 ("tutorial","src/open_petro_elastic/tutorial_config/tutorial_config.yaml"),
 ("readmeTutorial","tutorial_config/tutorial_config.yaml"),("readmeExample2","tutorial_config/example2.yaml")]
def strip(l):
    out='';q=False
    for k,ch in enumerate(l):
        if ch=='"': q=not q
        if ch=='#' and not q and (k==0 or l[k-1].isspace()): break
        out+=ch
    return out.rstrip()
def lines(t):
    for l in t.splitlines():
        s=strip(l)
        if s.strip(): yield len(s)-len(s.lstrip()), s.strip()
def scalar(s):
    s=s.strip()
    if s.startswith('['):
        return ('list',flow(s)[0])
    if s.startswith('"'): assert s.endswith('"'); return ('str',s[1:-1])
    if s in ('true','false'): return ('bool',s)
    if not re.fullmatch(r'-?[0-9]+(\.[0-9]*([eE][-+][0-9]+)?)?',s):
        assert re.fullmatch(r'[A-Za-z0-9_.+ ]+',s),s
        return ('str',s)
    return ('num',s)
def flow(s):
    assert s[0]=='['; i=1; out=[]
    while True:
        while s[i] in ' ,': i+=1
        if s[i]==']': return out,i+1
        if s[i]=='[':
            v,j=flow(s[i:]); out.append(('list',v)); i+=j
        else:
            m=re.match(r'[^,\]]+',s[i:]); out.append(scalar(m.group())); i+=m.end()
def block(L,i,ind):
    if L[i][1].startswith('- '):
        out=[]
        while i<len(L) and L[i][0]==ind and L[i][1].startswith('- '):
            rest=L[i][1][2:]; k=ind+2+(len(rest)-len(rest.lstrip()))
            L[i]=(k,rest.strip()); v,i=block(L,i,k); out.append(v)
        return ('list',out),i
    out=[]
    while i<len(L) and L[i][0]==ind:
        m=re.fullmatch(r'([a-z0-9_]+):\s*(.*)',L[i][1]); assert m,L[i]
        key,val=m.groups()
        if val: out.append((key,scalar(val))); i+=1
        else:
            v,i=block(L,i+1,L[i+1][0]); out.append((key,v))
    assert i==len(L) or L[i][0]<ind,(L[i],ind)
    return ('dict',out),i
def canon(x):
    m,_,e=x.lower().partition('e')
    if '.' in m: m=m.rstrip('0').rstrip('.')
    if float(m)==0: return '0'
    e=e.lstrip('+')
    return m+('e'+e if e else '')
def lean(v,ind=2):
    k,x=v
    if k=='num':
        x=canon(x)
        return f'num {x}' if not x.startswith('-') else f'num ({x})'
    if k=='str': return f'.str "{x}"'
    if k=='bool': return f'.scalar (.bool {x})'
    p=' '*ind
    if k=='list':
        if all(e[0]=='num' for e in x): return '.list ['+', '.join(lean(e) for e in x)+']'
        if all(e[0]=='list' for e in x): return '.list ['+', '.join(lean(e) for e in x)+']'
        return '.list [\n'+',\n'.join(p+lean(e,ind+2) for e in x)+']'
    if all(e[1][0] not in('dict','list') for e in x):
        return '.dict ['+', '.join(f'("{a}", {lean(b)})' for a,b in x)+']'
    return '.dict [\n'+',\n'.join(p+f'("{a}", {lean(b,ind+2)})' for a,b in x)+']'
out='''import Verif.Model.Parse

/-!
# The configuration files shipped with the code

Generated by tools/make_examples.py from the files named in the comments (comments of the files left out, `36.0E+9` written `36e9`).
-/

namespace OPE.Shipped

open Parse

/-- A number. -/
noncomputable def num {A : Type} (x : ℝ) : Cfg Scalar A := .scalar (.num (Num.fin x))

'''
for name,f in FILES:
    t=open('/repo/'+f).read(); n=len(t.splitlines())
    L=list(lines(t)); v,i=block(L,0,0); assert i==len(L)
    out+=f'/-- {f}:1-{n} -/\nnoncomputable def {name} : Yaml := {lean(v)}\n\n'
def fences(f):
    """The yaml blocks of a markdown file: first line, last line, text."""
    L=open('/repo/'+f).read().split('\n'); out=[]; start=None
    for k,l in enumerate(L,1):
        if l.startswith('```yaml'): start=k
        elif l.startswith('```') and start: out.append((start+1,k-1,'\n'.join(L[start:k-1]))); start=None
    return out
D=[("docMinerals","docs/getting_started_with_the_config_file_format.md",0),("docFluids","docs/getting_started_with_the_config_file_format.md",1),
 ("docDryRock","docs/getting_started_with_the_config_file_format.md",2),("docColumns","docs/getting_started_with_the_config_file_format.md",3),
 ("docColumns1000","docs/getting_started_with_the_config_file_format.md",4),("docAdjusting","docs/adjusting_with_depth_and_pressure.md",0)]
for name,f,k in D:
    a,b,t=fences(f)[k]
    L=list(lines(t)); v,i=block(L,0,0); assert i==len(L)
    out+=f'/-- {f}:{a}-{b} -/\nnoncomputable def {name} : Yaml := {lean(v)}\n\n'
out+='end OPE.Shipped\n'
open('/verif/lean/Verif/Model/Shipped.lean','w').write(out)
