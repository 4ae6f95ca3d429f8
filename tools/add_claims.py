"""usage: add_claims.py < lines 'Cxx|status|note'  (appends to claims.py)"""
import sys
f='/verif/tools/claims.py'
s=open(f).read().rstrip()
assert s.endswith('}')
s=s[:-1].rstrip()+"\n"
for l in sys.stdin:
    l=l.strip()
    if l:
        a,b,c=l.split('|',2)
        s+=' "%s": ("%s", %r),\n'%(a,b,c)
open(f,'w').write(s+"}\n")
