#!/usr/bin/env python3
# Transcribes the four DVB-T2 tables of /repo/tests/ldpc_regression_test.cc into lean/Verif/LDPC/Tables.lean.
import re
src=open('/repo/tests/ldpc_regression_test.cc').read()
out=['import Verif.LDPC.Model','/- The tables of tests/ldpc_regression_test.cc (generated by tools/gen_ldpc_tables.py). -/','namespace Verif.LDPC','']
lines=src.split('\n')
for m in re.finditer(r'struct (DVB_T2_TABLE_\w+)\s*\{(.*?)\n\};',src,re.S):
    name,b=m.group(1),m.group(2)
    l0=src[:m.start()].count('\n')+1; l1=src[:m.end()].count('\n')+1
    g=lambda k:int(re.search(r'static const int %s = (\d+);'%k,b).group(1))
    arr=lambda k:[int(x) for x in re.findall(r'\d+',re.search(r'%s\[\] = \{(.*?)\}'%k,b,re.S).group(1))]
    out.append(f'/-- tests/ldpc_regression_test.cc:{l0}-{l1} -/')
    out.append(f'def {name.lower()} : Table where')
    for k in ['M','N','K','LINKS_MAX_CN','LINKS_TOTAL']: out.append(f'  {k} := {g(k)}')
    for k in ['DEG','LEN','POS']:
        a=arr(k); s='  %s := ['%k; line=s
        for i,x in enumerate(a):
            t=str(x)+(', ' if i+1<len(a) else ']')
            if len(line)+len(t)>125: out.append(line.rstrip()); line='    '
            line+=t
        out.append(line)
    out.append('')
out.append('end Verif.LDPC')
open('/verif/lean/Verif/LDPC/Tables.lean','w').write('\n'.join(out)+'\n')
