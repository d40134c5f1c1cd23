import re
src={f:open('/repo/src/'+f).read() for f in ['entropymode.rs','token_cdfs.rs','context/block_unit.rs']}
def strip(t): return re.sub(r'//[^\n]*','',t)
def table(name):
    for f,t in src.items():
        m=re.search(r'pub (?:static|const) '+name+r'\s*:\s*',t)
        if m:
            line=t[:m.start()].count('\n')+1
            # skip the type: up to '=' at bracket depth 0
            i=m.end();d=0
            while not(t[i]=='=' and d==0):
                if t[i]=='[':d+=1
                if t[i]==']':d-=1
                i+=1
            j=i;d=0
            while not(t[j]==';' and d==0):
                if t[j] in '[({':d+=1
                if t[j] in '])}':d-=1
                j+=1
            end=t[:j].count('\n')+1
            return f,line,end,strip(t[i+1:j])
    raise Exception(name)
def rows(body):
    out=[]
    for m in re.finditer(r'\[([^\[\]]*)\]',body):
        x=m.group(1)
        if ';' in x:
            a,b=x.split(';'); out.append(('raw',[int(a)]*int(b))); continue
        out.append(('vars',[eval(v.strip()) for v in x.split(',') if v.strip()]))
    return out
new=strip(open('/repo/src/context/cdf_context.rs').read())
new=new[new.index('CDFContext {\n      partition_w8'):]
maps=re.findall(r'(\w+): (\w+)(\[qctx\])?,',new[:new.index('pub fn reset_counts')])
out=[]
o=out.append
o('''/-
Generated by /verif/tools/gen_cdf.py from /repo/src/entropymode.rs, /repo/src/token_cdfs.rs and
/repo/src/context/block_unit.rs: the default probability tables, one row per CDF in memory order, in
the cumulative form in which the source writes them (the arguments of `cdf(..)`, `cdf_2d(..)`, ...).
-/
namespace Rav1e.Cdf.Tables
''')
names=[]
def emit(lname,cite,rs):
    o(f'/-- `{cite}` -/')
    o(f'def {lname} : List (List Nat) :=')
    cur='  ['
    for k,r in enumerate(rs):
        s='['+', '.join(map(str,r))+']'+(', ' if k<len(rs)-1 else ']')
        if len(cur)+len(s)>98: o(cur.rstrip()); cur='   '
        cur+=s
    o(cur); o('')
disp=[]
for field,tab,q in maps:
    if tab=='default_nmv_context':
        f,l,e,body=table(tab)
        parts=re.split(r'NMVComponent \{',body)
        def fieldrows(seg,n):
            m=re.search(n+r': cdf(_2d)?\(',seg); i=m.end();j=i;d=1
            while d:
                if seg[j]=='(':d+=1
                if seg[j]==')':d-=1
                j+=1
            return [r for k,r in rows(seg[i:j-1])]
        emit('nmv_joints',f'{f}:{l}-{e}, joints_cdf',fieldrows(parts[0],'joints_cdf'))
        disp.append(('nmv_context.joints_cdf','nmv_joints',None))
        for c in (0,1):
            for n in "sign_cdf class0_hp_cdf hp_cdf class0_cdf bits_cdf class0_fp_cdf fp_cdf classes_cdf".split():
                nm='nmv%d_%s'%(c,n); emit(nm,f'{f}:{l}-{e}, comps[{c}].{n}',fieldrows(parts[c+1],r'\b'+n)); disp.append((f'nmv_context.comps[{c}].{n}',nm,None))
        continue
    f,l,e,body=table(tab)
    rs=rows(body)
    rr=[]
    for k,r in rs:
        if k=='raw':
            assert set(r)=={0}; rr.append([32768]*(len(r)-1))   # [0; n] is cdf([32768, ...])
        else: rr.append(r)
    if q:
        n=len(rr); assert n%4==0
        for k in range(4):
            emit(f'{tab}_{k}',f'{f}:{l}-{e}, [{k}]',rr[k*n//4:(k+1)*n//4])
        disp.append((field,tab,True))
    else:
        emit(tab,f'{f}:{l}-{e}',rr); disp.append((field,tab,None))
o('''/-- Which table initialises which field: `CDFContext::new`, cdf_context.rs:104-170.  `q` is `qctx`.
The row `[0; 2]` of `default_newmv_cdf` is written as the equal `cdf([32768])`. -/
def defaults (q : Nat) : List (String × List (List Nat)) :=''')
cur=[]
for field,t,q in disp:
    if q: cur.append(f'("{field}", match q with | 0 => {t}_0 | 1 => {t}_1 | 2 => {t}_2 | _ => {t}_3)')
    else: cur.append(f'("{field}", {t})')
o('  ['+',\n   '.join(cur)+']')
o('\nend Rav1e.Cdf.Tables')
open('/verif/lean/Verif/Cdf/Tables.lean','w').write('\n'.join(out)+'\n')
