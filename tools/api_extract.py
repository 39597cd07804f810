import re,glob,os,json
S='/repo/src/'
files=[f for f in sorted(glob.glob(S+'*.rs')+glob.glob(S+'sharpyuv/*.rs'))]
lib=open(S+'lib.rs').read()
exp=[]
for m in re.finditer(r'pub use (\w+)::(\{[^}]*\}|\w+);',lib):
    mod=m.group(1); names=m.group(2).strip('{}')
    for n in re.split(r'[,\s]+',names):
        if n and n[0].islower(): exp.append((mod,n))
txt={os.path.basename(f)[:-3]:open(f).read() for f in files}
def balanced(t,i,o,c):
    d=0
    for k in range(i,len(t)):
        if t[k]==o:d+=1
        elif t[k]==c:
            d-=1
            if d==0:return k
    raise 0
def strip(t): return re.sub(r'//[^\n]*','',t)
out={}
for mod,t in txt.items():
    t0=t
    t=re.sub(r'//[^\n]*',lambda m:' '*len(m.group(0)),t)
    # macros
    macros={}
    for m in re.finditer(r'macro_rules! (\w+)\s*\{',t):
        e=balanced(t,m.end()-1,'{','}')
        body=t[m.end():e]
        if 'pub fn $' not in body: continue
        # pattern
        i=body.index('('); j=balanced(body,i,'(',')')
        pat=body[i+1:j]
        k=body.index('{',j); l=balanced(body,k,'{','}')
        params=re.findall(r'\$(\w+)\s*:\s*\w+',pat)
        macros[m.group(1)]=(params,body[k+1:l],m.start(),e)
    for name,(params,body,ms,me) in macros.items():
        for m in re.finditer(r'\b'+name+r'!\s*\(',t):
            if ms<=m.start()<=me: continue
            e=balanced(t,m.end()-1,'(',')')
            argt=t0[m.end():e]
            # split by top-level commas, respecting strings/brackets
            args=[];d=0;cur='';ins=False
            for ch in re.sub(r'//[^\n]*','',argt):
                if ch=='"': ins=not ins
                if not ins:
                    if ch in '([{<' : d+=1
                    if ch in ')]}>' : d-=1
                    if ch==',' and d==0:
                        args.append(cur.strip());cur='';continue
                cur+=ch
            if cur.strip(): args.append(cur.strip())
            b=body
            for p,a in zip(params,args):
                b=re.sub(r'\$'+p+r'\b',lambda _:a,b)
            fm=re.search(r'pub fn (\w+)',b)
            line=t[:m.start()].count('\n')+1
            fb=b[fm.start():]
            i=fb.index('{'); 
            # body begins after signature: find ') ->' then '{'
            s=fb.index('->'); i=fb.index('{',s)
            j=balanced(fb,i,'{','}')
            out[fm.group(1)]=(mod,line,line+argt.count('\n'),re.sub(r'\s+',' ',fb[i+1:j]).strip())
    for m in re.finditer(r'\bpub fn (\w+)',t):
        if any(a<=m.start()<=b for _,_,a,b in macros.values()): continue
        s=t.find('->',m.start()); i=t.find('{',s)
        if s<0: continue
        j=balanced(t,i,'{','}')
        out.setdefault(m.group(1),(mod,t[:m.start()].count('\n')+1,t[:j].count('\n')+1,re.sub(r'\s+',' ',t[i+1:j]).strip()))
json.dump({'exp':exp,'out':out},open('/tmp/api.json','w'))
if __name__=='__main__':
    miss=[n for _,n in exp if n not in out]
    print(len(exp),len(out),'missing',miss)
    seen={}
    for mod,n in exp:
        if n in out:
            seen.setdefault(mod,[]).append(n)
    for mod,l in seen.items():
        print('==',mod,len(l),l[0],out[l[0]][1:3],out[l[0]][3][:700])
