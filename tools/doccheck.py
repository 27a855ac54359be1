#!/usr/bin/env python3
"""Every definition of the model must carry a comment citing the lines of /repo it models."""
import re,glob,os
root=os.path.join(os.path.dirname(__file__),'..','lean','Verif')
cite=re.compile(r'[A-Za-z0-9_]+\.py:?|:\d+|obd/')
n=0;bad=[]
for f in sorted(glob.glob(root+'/Model/*.lean')):
    lines=open(f).read().split('\n')
    hdr=bool(re.search(r'/-!.*?-/',open(f).read(),re.S))
    for i,l in enumerate(lines):
        m=re.match(r'(?:@\[[^\]]*\] *)?(?:private |abbrev |noncomputable )*(def|abbrev|structure|inductive|instance)\b *(\S+)',l)
        m=m or re.match(r'(abbrev) (\S+)',l)
        if not m: continue
        n+=1
        # docstring directly above
        j=i-1; doc=''
        if j>=0 and lines[j].rstrip().endswith('-/'):
            k=j
            while k>=0 and '/--' not in lines[k]: k-=1
            doc='\n'.join(lines[k:j+1])
        if not doc: bad.append((os.path.basename(f),i+1,m.group(2),'no comment'))
        elif not cite.search(doc): bad.append((os.path.basename(f),i+1,m.group(2),'no citation'))
for b in bad: print(*b)
print(n,'definitions,',len(bad),'without a citation')
