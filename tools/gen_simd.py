#!/usr/bin/env python3
"""Translates the SIMD back ends of /repo into Lean: one definition per function, plus the table of intrinsics they use.
Usage: gen_simd.py   (writes lean/Verif/SIMD/{Intrin,Sse,Avx2,Neon,...}.lean)"""
import re,sys,os
OUT='/verif/lean/Verif/SIMD/'
T={'float':('f32',32),'double':('f64',64),'int8_t':('i8',8),'int16_t':('i16',16),'int32_t':('i32',32),'int64_t':('i64',64),
   'uint8_t':('u8',8),'uint16_t':('u16',16),'uint32_t':('u32',32),'uint64_t':('u64',64)}
def parse(fn):
    s=open('/repo/'+fn).read()
    out=[]
    for m in re.finditer(r'template <>\s*\ninline (SIMD<(\w+), (\d+)>) (\w+)(?:<SIMD<\w+, \d+>>)?\(([^)]*)\)\s*\n\{\n(.*?)\n\}',s,re.S):
        line=s[:m.start()].count('\n')+1; end=s[:m.end()].count('\n')+1
        args=[]
        for a in re.findall(r'(?:SIMD<(\w+), (\d+)>|(\w+)) (\w+)(?:,|$)',m.group(5)):
            args.append((a[0] or a[2],int(a[1]) if a[1] else 0,a[3]))
        out.append(dict(ret=(m.group(2),int(m.group(3))),name=m.group(4),args=args,body=m.group(6),line=line,end=end))
    return out
# --- expressions
TOK=re.compile(r'\s*(?:(\d+\.\d*f?|\d+)|([A-Za-z_]\w*)|(.))',re.S)
CONST={'INT8_MAX':127,'INT16_MAX':32767,'INT32_MAX':2147483647,'_CMP_EQ_OQ':'Cmp.eq','_CMP_GT_OQ':'Cmp.gt','_CMP_LT_OQ':'Cmp.lt','_CMP_LE_OQ':'Cmp.le'}
class E:
    def __init__(s,t,multi):
        s.t=[m.group(1) or m.group(2) or m.group(3) for m in TOK.finditer(t) if (m.group(1) or m.group(2) or (m.group(3) and m.group(3).strip()))]
        s.i=0; s.multi=multi
    def pk(s): return s.t[s.i] if s.i<len(s.t) else None
    def nx(s): s.i+=1; return s.t[s.i-1]
    def ex(s,x):
        y=s.nx(); assert x==y,(x,y,s.t)
    def expr(s):
        k=s.pk()
        if k=='(':                       # a cast: the identity on bit patterns
            s.nx(); ty=s.nx(); assert re.match(r'__m\d+[id]?$|\w+x\d+_t$',ty),ty; s.ex(')'); return s.expr()
        if k=='-':
            s.nx(); v=s.nx()
            if v in CONST: return '(BitVec.ofInt _ (-%d))'%CONST[v]
            if v=='0.f': return '(negz 32)'
            if v=='0.': return '(negz 64)'
            assert False,v
        v=s.nx()
        if re.match(r'\d',v):
            if v=='1.f': return 'f32.one'
            if v=='1.': return 'f64.one'
            if v in('0.f',): return '(0#32)'
            return v
        if s.pk()=='(':
            s.nx(); a=[]
            while s.pk()!=')':
                a.append(s.expr())
                if s.pk()==',': s.nx()
            s.ex(')')
            pre=''
            m=re.search(r'_(add|sub|mul)_(ps|pd)$',v) or re.match(r'v(add|sub|mul)q_(f32)$',v)
            if m: pre=' A64' if m.group(2)=='pd' else ' A32'
            USED.add(v)
            if not a: return v
            return '('+v+pre+' '+' '.join(a)+')'
        if s.pk()=='.':
            s.nx(); s.ex('m')
            if s.pk()=='[':
                s.nx(); ix=s.nx(); s.ex(']'); return '(%s %s)'%(v,ix)
            return v
        if v in CONST: return CONST[v]
        return v
USED=set()
def expr(t,multi=False):
    e=E(t,multi); r=e.expr(); assert e.i==len(e.t),(t,e.t[e.i:]); return r
def strip(r): return r[1:-1] if r.startswith('(') and r.endswith(')') and balanced(r[1:-1]) else r
def balanced(x):
    d=0
    for c in x:
        if c=='(': d+=1
        if c==')':
            d-=1
            if d<0: return False
    return d==0
def lname(f,pre,suffix=''):
    n=f['name']
    src=f['args'][0][0] if f['args'] else None
    ty=T[f['ret'][0]][0]
    if n=='vreinterpret': return '%s.%s_%s_%s%s'%(pre,n,T[src][0],ty,suffix)
    if n in('vceqz','vceq','vcgtz','vcltz','vclez'): ty=T[src][0]
    return '%s.%s_%s%s'%(pre,n,ty,suffix)
def gen(fn,pre,N,M):
    """one back end header; M registers of N bits"""
    reg='BitVec %d'%N if M==1 else 'Nat → BitVec %d'%N
    o=[];names=[]
    for f in parse(fn):
        body=f['body']
        # split at the preprocessor
        variants=[('',body)]
        m=re.search(r'#ifdef __aarch64__\n(.*?)#else\n(.*?)#endif\n',body,re.S)
        if m: variants=[('_a64',body[:m.start()]+m.group(1)+body[m.end():]),('_a32',body[:m.start()]+m.group(2)+body[m.end():])]
        for suf,b in variants:
            b=re.sub(r'\s+',' ',b).strip()
            b=re.sub(r'^SIMD<\w+, \d+> tmp;','',b).strip()
            assert b.endswith('return tmp;'),b
            b=b[:-len('return tmp;')].strip()
            loop=False
            m=re.match(r'for \(int i = 0; i < (\d+); \+\+i\) (.*)$',b)
            if m:
                assert int(m.group(1))==M,(f,M); b=m.group(2).strip(); loop=True
                if b.startswith('{'): b=b[1:-1].strip()
            assert loop==(M>1),(fn,f)
            stm=[x.strip() for x in b.split(';') if x.strip()]
            lets=[]
            for x in stm[:-1]:
                m=re.match(r'\w+ (\w+) = (.*)$',x)
                if m: lets.append('let %s := %s'%(m.group(1),strip(expr(m.group(2)))))
                else:
                    m=re.match(r'\w+ (\w+) \{ (.*), (.*) \}$',x); 
                    lets.append('let %s := (%s, %s)'%(m.group(1),strip(expr(m.group(2))),strip(expr(m.group(3)))))
            m=re.match(r'tmp\.m(\[i\])? = (.*)$',stm[-1]); assert m,stm
            r=strip(expr(m.group(2)))
            nm=lname(f,pre,suf)
            tmpd='tmp' in re.findall(r'\w+',m.group(2))
            par=''
            for (ty,n,a) in f['args']:
                if n: par+=' (%s : %s)'%(a,reg)
                else: par+=' (%s : BitVec %d)'%(a,T[ty][1])
            if tmpd: par+=' (tmp : %s)'%reg
            fl=re.findall(r'\bA(32|64)\b',r)
            if fl: par=' (A%s : Fpu %s)'%(fl[0],fl[0])+par
            full=' '.join(x+';' for x in lets)+(' ' if lets else '')+r
            if loop: full='regs %d fun i => '%M+full
            o.append('/-- %s:%d-%d -/'%(fn,f['line'],f['end']))
            o.append('def %s%s : %s :=\n  %s'%(nm,par,reg,full))
            names.append((f,nm,suf))
    return o,names
HEAD=[('sse4_1.hh','sse','Sse',128,1),('sse4_1_double.hh','sse2','Sse2',128,2),('sse4_1_triple.hh','sse3','Sse3',128,3),('sse4_1_quadruple.hh','sse4','Sse4',128,4),
 ('avx2.hh','avx','Avx',256,1),('avx2_double.hh','avx2','Avx2',256,2),
 ('neon.hh','neon','Neon',128,1),('neon_double.hh','neon2','Neon2',128,2),('neon_triple.hh','neon3','Neon3',128,3),('neon_quadruple.hh','neon4','Neon4',128,4)]
def intrin():
    D={}
    def d(n,sig,body,doc): D[n]='/-- %s -/\ndef %s %s := %s'%(doc,n,sig,body)
    for p,N,s in (('_mm_',128,'si128'),('_mm256_',256,'si256')):
        R='BitVec %d'%N
        b2='(a b : %s) : %s'%(R,R)
        for w in (8,16,32,64):
            d(p+'add_epi%d'%w,b2,'map2 %d (fun x y => x + y) a b'%w,'PADD'); d(p+'sub_epi%d'%w,b2,'map2 %d (fun x y => x - y) a b'%w,'PSUB')
            d(p+'cmpeq_epi%d'%w,b2,'map2 %d I.cmpeq a b'%w,'PCMPEQ'); d(p+'cmpgt_epi%d'%w,b2,'map2 %d I.cmpgt a b'%w,'PCMPGT')
            d(p+'max_epi%d'%w,b2,'map2 %d I.smax a b'%w,'PMAXS'+('; this one needs AVX-512' if w==64 else '')); d(p+'min_epi%d'%w,b2,'map2 %d I.smin a b'%w,'PMINS'+('; this one needs AVX-512' if w==64 else ''))
            d(p+('set1_epi%d'%w if w<64 else 'set1_epi64x'),'(a : BitVec %d) : %s'%(w,R),'ofLanes %d %d fun _ => a'%(N,w),'broadcast')
            if w<64:
                d(p+'abs_epi%d'%w,'(a : %s) : %s'%(R,R),'map1 %d I.abs a'%w,'PABS'); d(p+'sign_epi%d'%w,b2,'map2 %d I.sign a b'%w,'PSIGN')
            if w<32:
                d(p+'adds_epi%d'%w,b2,'map2 %d I.adds a b'%w,'PADDS'); d(p+'subs_epi%d'%w,b2,'map2 %d I.subs a b'%w,'PSUBS'); d(p+'subs_epu%d'%w,b2,'map2 %d I.subus a b'%w,'PSUBUS')
        for q in (s,'ps','pd'):
            d(p+'and_'+q,b2,'a &&& b','PAND, ANDPS, ANDPD'); d(p+'or_'+q,b2,'a ||| b','POR, ORPS, ORPD'); d(p+'xor_'+q,b2,'a ^^^ b','PXOR, XORPS, XORPD')
            d(p+'andnot_'+q,b2,'~~~ a &&& b','PANDN, ANDNPS, ANDNPD'); d(p+'setzero_'+q,': '+R,'0','zero')
        for q,w in (('ps',32),('pd',64)):
            for op in ('add','sub','mul'): d(p+op+'_'+q,'(A : Fpu %d) (a b : %s) : %s'%(w,R,R),'map2 %d A.%s a b'%(w,op),op.upper()+q.upper())
            d(p+'set1_'+q,'(a : BitVec %d) : %s'%(w,R),'ofLanes %d %d fun _ => a'%(N,w),'broadcast')
            d(p+'min_'+q,b2,'map2 %d (I.fminX f%d) a b'%(w,w),'MIN'+q.upper()); d(p+'max_'+q,b2,'map2 %d (I.fmaxX f%d) a b'%(w,w),'MAX'+q.upper())
            for op in ('eq','lt','le','gt'):
                if N==128: d(p+'cmp'+op+'_'+q,b2,'map2 %d (I.fcmp%s f%d) a b'%(w,op,w),'CMP'+q.upper())
            if N==256: d(p+'cmp_'+q,'(a b : %s) (c : Cmp) : %s'%(R,R),'map2 %d (c.op f%d) a b'%(w,w),'VCMP'+q.upper())
        d(p+'shuffle_epi8',b2,'pshufb %d a b'%N,'PSHUFB')
    R='BitVec 256'
    d('_mm256_permute2x128_si256','(a b : %s) (c : Nat) : %s'%(R,R),'ofLanes 256 128 fun i => sel128 a b (c / 16 ^ i % 16)','VPERM2I128')
    for q in ('epi32','ps'): d('_mm256_permutevar8x32_'+q,'(a b : %s) : %s'%(R,R),'ofLanes 256 32 fun i => lane 32 a ((lane 32 b i).toNat % 8)','VPERMD, VPERMPS')
    R='BitVec 128'; b2='(a b : %s) : %s'%(R,R); b1='(a : %s) : %s'%(R,R)
    for w in (8,16,32,64):
        for t in 'su':
            x='%s%d'%(t,w)
            d('vdupq_n_'+x,'(a : BitVec %d) : %s'%(w,R),'ofLanes 128 %d fun _ => a'%w,'DUP')
            d('vaddq_'+x,b2,'map2 %d (fun x y => x + y) a b'%w,'ADD'); d('vsubq_'+x,b2,'map2 %d (fun x y => x - y) a b'%w,'SUB'); d('vmulq_'+x,b2,'map2 %d (fun x y => x * y) a b'%w,'MUL')
            d('vandq_'+x,b2,'a &&& b','AND'); d('vorrq_'+x,b2,'a ||| b','ORR'); d('veorq_'+x,b2,'a ^^^ b','EOR'); d('vbicq_'+x,b2,'a &&& ~~~ b','BIC')
            d('vbslq_'+x,'(a b c : %s) : %s'%(R,R),'(a &&& b) ||| (~~~ a &&& c)','BSL')
        x='s%d'%w
        d('vnegq_'+x,b1,'map1 %d (fun x => -x) a'%w,'NEG'); d('vqabsq_'+x,b1,'map1 %d I.qabs a'%w,'SQABS'); d('vqaddq_'+x,b2,'map2 %d I.adds a b'%w,'SQADD'); d('vqsubq_'+x,b2,'map2 %d I.subs a b'%w,'SQSUB')
        d('vqsubq_u%d'%w,b2,'map2 %d I.subus a b'%w,'UQSUB')
        d('vminq_'+x,b2,'map2 %d I.smin a b'%w,'SMIN'); d('vmaxq_'+x,b2,'map2 %d I.smax a b'%w,'SMAX')
        for op in ('eq','gt','lt','le'): d('vc%sq_%s'%(op,x),b2,'map2 %d I.cmp%s a b'%(w,op),'CM'+op.upper())
    for op in ('eq','gt','lt','le'): d('vc%sq_f32'%op,b2,'map2 32 (I.fcmp%s f32) a b'%op,'FCM'+op.upper())
    for op in ('add','sub','mul'): d('v%sq_f32'%op,'(A : Fpu 32) (a b : %s) : %s'%(R,R),'map2 32 A.%s a b'%op,'F'+op.upper())
    d('vdupq_n_f32','(a : BitVec 32) : '+R,'ofLanes 128 32 fun _ => a','DUP')
    d('vabsq_f32',b1,'map1 32 (fun x => x &&& ~~~ negz 32) a','FABS'); d('vminq_f32',b2,'map2 32 (I.fminN f32) a b','FMIN'); d('vmaxq_f32',b2,'map2 32 (I.fmaxN f32) a b','FMAX')
    for t in 'su':
        d('vqtbl1q_%s8'%t,b2,'tbl1 a b','TBL')
        d('vget_low_%s8'%t,'(a : BitVec 128) : BitVec 64','lane 64 a 0','lower half'); d('vget_high_%s8'%t,'(a : BitVec 128) : BitVec 64','lane 64 a 1','upper half')
        d('vtbl2_%s8'%t,'(c : BitVec 64 × BitVec 64) (b : BitVec 64) : BitVec 64','tbl2 c b','VTBL')
        d('vcombine_%s8'%t,'(a b : BitVec 64) : BitVec 128','ofLanes 128 64 fun i => if i = 0 then a else b','combine halves')
    return D

# --- proofs
ISINT=lambda t:t[0]=='i'
LANES='lane_map1, lane_map2, lane_and, lane_or, lane_xor, lane_not, lane_zero, lane_ofLanes'
def spec(op,t,w,fname,n,v,isneon):
    """(statement, final tactic) of one function"""
    F={'f32':'f32','f64':'f64'}.get(t)
    nn=fname
    A='A%d'%w
    hw='(by decide)'
    N='N' if isneon else ''
    if op=='vreinterpret': return 'Lift1 %s %s %s fun x => x'%(n,v,nn),1,''
    if op=='vdup': return 'LiftDup %s %s %s'%(n,v,nn),1,''
    if op=='vzero':
        if isneon: return '∀ tmp, Lift0 %s %s (%s tmp) 0'%(n,v,nn),0,'exact BitVec.xor_self'
        return 'Lift0 %s %s %s 0'%(n,v,nn),0,''
    if F:
        if op in('vadd','vsub','vmul'): return '∀ %s : Fpu %d, Lift2 %s %s (%s %s) %s.%s'%(A,w,n,v,nn,A,A,op[1:]),2,''
        if op=='vabs': return 'Lift1 %s %s %s Fmt.vabs'%(n,v,nn),1,'exact LL.fabs%s _'%N
        if op=='vcopysign': return 'Lift2 %s %s %s Fmt.vcopysign'%(n,v,nn),2,'exact LL.fcopysign%s _ _'%N
        if op=='vsignum': return 'LiftSignum %s %s %s %s'%(F,n,v,nn),1,'exact LL.fsignum%s %s %s %s hn'%(N,F,hw,'' if isneon else 'LL.one%d'%w)
        if op=='vsign': return 'LiftSign %s %s %s %s'%(F,n,v,nn),2,'exact LL.fsign%s %s %s hm ha hn'%(N,F,hw)
        if op in('vmin','vmax'): return 'LiftNum2 %s %s %s %s %s.%s'%(F,n,v,nn,F,op),2,'exact LL.f%s%s %s %s ha hn'%(op[1:],N,F,hw)
        if op=='vclamp': return 'LiftClamp %s %s %s %s'%(F,n,v,nn),3,'exact LL.fclamp%s %s %s hx ha hn'%(N,F,hw)
        if op in('vceqz','vcgtz','vcltz','vclez'): return 'Lift1 %s %s %s %s.%s'%(n,v,nn,F,op),1,'exact LL.fc%s %s _'%(op[2:],F)
        if op=='vceq': return 'Lift2 %s %s %s %s.vceq'%(n,v,nn,F),2,'exact LL.fceq %s _ _'%F
    if op in('vorr','vand','veor'): return 'Lift2 %s %s %s P.%s'%(n,v,nn,op),2,'rfl'
    if op=='vbic': return 'Lift2 %s %s %s P.vbic'%(n,v,nn),2,'rfl' if isneon else 'exact LL.bic _ _'
    if op=='vbsl': return 'Lift3 %s %s %s P.vbsl'%(n,v,nn),3,'rfl'
    if op in('vadd','vsub','vmul'): return 'Lift2 %s %s %s P.%s'%(n,v,nn,op),2,'exact LL.%s _ _'%op[1:]
    if op=='vqadd': return 'Lift2 %s %s %s P.vqadd'%(n,v,nn),2,'exact LL.adds _ _'
    if op=='vqsub': return 'Lift2 %s %s %s P.vqsub%s'%(n,v,nn,'U' if t[0]=='u' else ''),2,'exact LL.subs _ _' if t[0]=='i' else 'exact LL.subus _ _'
    if op=='vqabs': return 'Lift1 %s %s %s P.vqabs'%(n,v,nn),1,'exact LL.sqabs %s _'%hw if isneon else 'exact LL.qabs (by decide) (by decide) _'
    if op=='vsignum': return 'Lift1 %s %s %s P.vsignum'%(n,v,nn),1,'exact LL.nsignum _' if isneon else 'exact LL.signum _'
    if op=='vsign': return 'Lift2 %s %s %s P.vsign'%(n,v,nn),2,'exact LL.nsign _ _' if isneon else 'exact LL.sign _ _'
    if op=='vceqz': return 'Lift1 %s %s %s P.vceqz'%(n,v,nn),1,'exact LL.cmpeqz _'
    if op=='vceq': return 'Lift2 %s %s %s P.vceq'%(n,v,nn),2,'exact LL.cmpeq _ _'
    if op=='vcgtz': return 'Lift1 %s %s %s P.vcgtz'%(n,v,nn),1,'exact LL.cmpgtz _'
    if op=='vcltz': return 'Lift1 %s %s %s P.vcltz'%(n,v,nn),1,'exact LL.cmpltz _' if isneon else "exact LL.cmpgtz' _"
    if op=='vclez': return 'Lift1 %s %s %s P.vclez'%(n,v,nn),1,'exact LL.cmplez _' if isneon else 'exact LL.eqgt _'
    if op in('vmin','vmax'): return 'Lift2 %s %s %s P.%s'%(n,v,nn,op),2,'exact LL.s%s _ _'%op[1:]
    if op=='vclamp': return 'LiftS %s %s %s P.vclamp'%(n,v,nn),3,'exact LL.sclamp _ _ _'
    assert False,(op,t)
SHUF={ # (pre,width): ok, lhs, comb
 ('sse',8):('fun j => j < 16 ∨ 128 ≤ j',None), ('sse2',8):('fun j => j < 32 ∨ 144 ≤ j',None),('sse3',8):('fun j => j < 48 ∨ 160 ≤ j',None),('sse4',8):('fun j => j < 64 ∨ 176 ≤ j',None),
 ('avx',8):('fun j => j < 32 ∨ 144 ≤ j',None),('avx2',8):('fun j => j < 64 ∨ 176 ≤ j',None),('avx',32):('fun j => j < 8',None),('avx2',32):('fun j => j < 16',None),
}
def shuf(pre,nm,w,n,v,N,M,intr):
    ok=SHUF.get((pre,w),('fun _ => True',))[0]
    st='LiftShuf %s (%s) %s %s %s'%(n,ok,v,v,nm)
    J='(%s b k)'%v
    o=['  intro a b k hk hj']
    simps='%s, vw, regs_lt, Nat.reduceDiv, LL.lane_low, LL.lane_high, LL.lane_pshufb, LL.lane_tbl1, %s'%(', '.join([nm]+intr),LANES)
    def sset(e): o.append('  have e : %s (%s a b) k = %s := by\n    simp (disch := omega) only [%s]'%(v,nm,e,simps))
    a=['lane 8 (a %d)'%i for i in range(4)]
    if w==32:
        if M==1:
            o.append('  simp (disch := omega) only [%s, lane_ofLanes]\n  rw [Nat.mod_eq_of_lt hj, P.vshuf, if_pos hj]'%', '.join([nm]+intr))
        else:
            sset('(lane 32 (a 0) (%s.toNat %% 8) &&& I.cmpgt 8 %s) ||| (lane 32 (a 1) ((%s - 8).toNat %% 8) &&& I.cmpgt %s 7)'%(J,J,J,J))
            o.append('  rw [e, LL.combD (fun q => lane 32 (a q)) _ hj]\n  rfl')
        return st,o
    if pre.startswith('neon'):
        if nm.endswith('_a32'):
            o.append('  have e : %s (%s a b) k = LL.tb (lane 8 a) (lane 8 b k) := by'%(v,nm))
            o.append('    have h2 : k / 8 = 0 ∨ k / 8 = 1 := by omega')
            o.append('    simp (disch := omega) only [%s, LL.lane_big64]'%', '.join([nm]+intr))
            o.append('    rcases h2 with h | h <;> rw [h]')
            o.append('    · rw [if_pos rfl, LL.lane_tbl2 _ _ (by omega), LL.lane_lane64 _ _ _ (by omega)]; congr 2; omega')
            o.append('    · rw [if_neg (by decide), LL.lane_tbl2 _ _ (by omega), LL.lane_lane64 _ _ _ (by omega)]; congr 2; omega')
            o.append('  rw [e]; rfl')
            return st,o
        E='LL.tb (%s) %s'%('lane 8 a' if M==1 else a[0],J)
        for i in range(1,M): E='(%s) ||| LL.tb (%s) (%s - %d)'%(E,a[i],J,16*i) if i>1 else '%s ||| LL.tb (%s) (%s - %d)'%(E,a[i],J,16*i)
        sset(E)
        o.append('  rw [e]; rfl' if M==1 else '  rw [e, LL.combT%d (fun q => lane 8 (a q))]\n  rfl'%M)
        return st,o
    if pre=='sse':
        sset('LL.sh (lane 8 a) %s'%J); o.append('  rw [e, LL.comb1 _ _ hj]; rfl'); return st,o
    nb=M if N==128 else 2*M
    if N==256:
        a=['lane 8 a','fun i => lane 8 a (16 + i)'] if M==1 else ['lane 8 (a 0)','fun i => lane 8 (a 0) (16 + i)','lane 8 (a 1)','fun i => lane 8 (a 1) (16 + i)']
    parts=[]
    for i in range(nb):
        jj=J if i==0 else '%s - %d'%(J,16*i)
        if i<nb-1: jj='%s ||| I.cmpgt %s %d'%(jj,J,16*i+15)
        parts.append('LL.sh (%s) (%s)'%(a[i],jj))
    if pre=='avx2': E='(%s ||| %s) ||| (%s ||| %s)'%tuple(parts)
    else:
        E=parts[0]
        for q in parts[1:]: E='(%s) ||| %s'%(E,q)
    sset(E)
    if N==128: o.append('  rw [e, LL.comb%d (fun q => lane 8 (a q)) _ hj]\n  rfl'%nb)
    else:
        if M==2: o.append('  rw [← BitVec.or_assoc] at e')
        o.append('  exact e.trans ((LL.comb%d (LL.%s a) _ hj).trans (LL.%s_eq a _ _))'%(nb,'blk2' if M==1 else 'blk4','blk2' if M==1 else 'blk4'))
    return st,o
def proofs(fn,pre,mod,N,M,o,names):
    out=['import Verif.SIMD.%s'%mod,'import Verif.SIMD.Spec','import Verif.SIMD.Shuf','/- %s, function by function (generated by tools/gen_simd.py). -/'%fn,'namespace Verif.SIMD','namespace %s_ok'%pre,'']
    idx=[]
    bodies={}
    for i in range(0,len(o),2):
        nm=re.match(r'def (\S+)',o[i+1]).group(1); bodies[nm]=o[i+1]
    isneon=pre.startswith('neon')
    for f,nm,suf in names:
        op=f['name']
        ts=nm.split('.')[1][len(op)+1:]
        t=ts.split('_')[0]
        w=int(t[1:]); n=N//w*M
        assert n==f['ret'][1],(f,n)
        v='(lane %d)'%w if M==1 else '(vw %d %d)'%(N,w)
        intr=sorted(set(x for x in re.findall(r'\b(_mm\w+|v\w+q\w*_\w+|v(?:get|tbl|combine)\w+)\b',bodies[nm].split(':=',1)[1]) ))
        intr=[x for x in intr if x in USED]
        thm=nm.split('.')[1]
        if op=='vshuf':
            st,pf=shuf(pre,nm,w,n,v,N,M,intr)
            out.append('theorem %s : %s := by\n%s'%(thm,st,'\n'.join(pf)))
        else:
            st,ar,fin=spec(op,t,w,nm,n,v,isneon)
            xs=['a','b','c'][:ar]
            pre_i=[]
            if st.startswith('∀ A'): pre_i=['A']
            if st.startswith('∀ tmp'): pre_i=['tmp']
            hyp=[]
            if 'LiftSignum' in st: hyp=['hn']
            if 'LiftNum2' in st: hyp=['ha','hn']
            if 'LiftClamp' in st: hyp=['hx','ha','hn']
            if 'LiftSign ' in st: pre_i=['m','hm']; hyp=['ha','hn']
            intro=pre_i+xs+['k','hk']+hyp
            # unfold the view in the hypotheses by changing the goal only: hypotheses match up to definitional unfolding
            sl=', '.join([nm]+intr+(['Cmp.op'] if '_cmp_p' in bodies[nm] else [])+(['vw','regs_lt','Nat.reduceDiv'] if M>1 else [])+[LANES])
            lines=['  intro %s'%' '.join(intro)]
            lines.append('  simp (disch := omega) only [%s]'%sl)
            if fin: lines.append('  '+fin)
            out.append('theorem %s : %s := by\n%s'%(thm,st,'\n'.join(lines)))
        idx.append((t,op,thm,st))
    out+=['','end %s_ok'%pre,'end Verif.SIMD','']
    open(OUT+'Ok'+mod+'.lean','w').write('\n'.join(out))
    return idx
TNAME={v[0]:k for k,v in T.items()}
def props(group,cid,mods,idxs,extra):
    out=[]
    for m in mods: out.append('import Verif.SIMD.Ok%s'%m[2])
    out.append('/- %s (%s): the register functions of these headers act on every lane like the portable templates of simd.hh.\nGenerated by tools/gen_simd.py; the predicates are in Spec.lean, the lane functions in Port.lean. -/'%(cid,', '.join(m[0] for m in mods)))
    out.append('namespace Verif.SIMD\n')
    for m in mods:
        fn,pre,mod,N,M=m[:5]
        by={}
        for t,op,thm,st in idxs[pre]: by.setdefault(t,[]).append((op,thm,st))
        for t in ['i8','i16','i32','i64','u8','u16','u32','u64','f32','f64']:
            if t not in by: continue
            w=int(t[1:])
            out.append('/-- %s, `SIMD<%s, %d>` -/'%(fn,TNAME[t],N//w*M))
            q=lambda st:'(%s)'%st if st.startswith('∀') or 'fun' in st else st
            out.append('theorem %s_%s_%s :\n    %s :=\n  ⟨%s⟩\n'%(cid,pre,t,' ∧\n    '.join(q(st) for op,thm,st in by[t]),', '.join('%s_ok.%s'%(pre,thm) for op,thm,st in by[t])))
    out.append(extra)
    out.append('end Verif.SIMD\n')
    open(OUT+'Props%s.lean'%group,'w').write('\n'.join(out))
if __name__=='__main__':
    IDX={}
    mods=[]
    for fn,pre,mod,N,M in HEAD:
        o,names=gen(fn,pre,N,M); mods.append((fn,pre,mod,N,M,o,names))
    D=intrin()
    miss=[u for u in sorted(USED) if u not in D]
    assert not miss,miss
    with open(OUT+'Intrin.lean','w') as f:
        f.write('''import Verif.SIMD.Lane
/- The intrinsics the back ends use, as functions on registers.  Trusted (generated by tools/gen_simd.py from a table of the
instructions' documented lane operations). -/
namespace Verif.SIMD

/-- The comparison predicates `_CMP_EQ_OQ`, `_CMP_GT_OQ`, `_CMP_LT_OQ`, `_CMP_LE_OQ`. -/
inductive Cmp where
  | eq | gt | lt | le

/-- One lane of VCMPPS/VCMPPD. -/
def Cmp.op {w : Nat} (c : Cmp) (F : Fmt w) : BitVec w → BitVec w → BitVec w :=
  match c with
  | .eq => I.fcmpeq F
  | .gt => I.fcmpgt F
  | .lt => I.fcmplt F
  | .le => I.fcmple F

/-- The choice of VPERM2I128. -/
def sel128 (a b : BitVec 256) (c : Nat) : BitVec 128 :=
  if c / 8 % 2 = 1 then 0 else if c % 4 = 0 then lane 128 a 0 else if c % 4 = 1 then lane 128 a 1 else if c % 4 = 2 then lane 128 b 0 else
  lane 128 b 1

''')
        for u in sorted(USED): f.write(D[u]+'\n')
        f.write('\nend Verif.SIMD\n')
    for fn,pre,mod,N,M,o,names in mods:
        with open(OUT+mod+'.lean','w') as f:
            f.write('import Verif.SIMD.Intrin\n/- Model of %s, generated by tools/gen_simd.py: every function is the composition of intrinsics in its body.%s -/\nnamespace Verif.SIMD\n\n'%(fn,'' if M==1 else '\nA value is the array `m` of its registers.'))
            f.write('\n'.join(o)); f.write('\n\nend Verif.SIMD\n')
        print(fn,len(names))
        IDX[pre]=proofs(fn,pre,mod,N,M,o,names)
    for group,cid,ms in (('Sse','C52',mods[0:4]),('Avx','C53',mods[4:6]),('Neon','C54',mods[6:10])):
        ex='/verif/tools/simd_extra_%s.txt'%group.lower()
        props(group,cid,ms,IDX,open(ex).read() if os.path.exists(ex) else '')
