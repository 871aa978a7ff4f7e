#!/usr/bin/env python3
"""Which functions of /repo/c are cited by the model.  Lists the functions no definition in lean/Verif/Model cites (by line range overlap or by name)."""
import re,os,glob,subprocess
R='/repo/c'; M=os.path.dirname(os.path.abspath(__file__))+'/../lean/Verif/Model'
text='\n'.join(open(f).read() for f in sorted(glob.glob(M+'/*.lean')))
cites={}
cur=None
# citations: file:lines, lines may be comma / and separated
for m in re.finditer(r'([A-Za-z0-9_/\.\-]+\.(?:c|cc|h)):([0-9][0-9,\- ]*)((?:[^\n]*))',text):
    f=os.path.basename(m.group(1))
    rest=m.group(2)+' '+m.group(3)
    for a,b in re.findall(r'(\d+)(?:-(\d+))?',rest):
        a=int(a); b=int(b or a)
        if b>=a and b-a<2000: cites.setdefault(f,[]).append((a,b))
tot=miss=0
for root,_,fs in os.walk(R):
    if 'third_party' in root or 'test' in root or 'fuzz' in root: continue
    for fn in sorted(fs):
        if not re.search(r'\.(c|cc|h)$',fn): continue
        L=open(os.path.join(root,fn),errors='replace').read().split('\n')
        i=0
        while i<len(L):
            # function definition: line(s) starting at col 0 ending with ') {'
            if re.match(r'^[A-Za-z_].*',L[i]) and '(' in L[i] and not re.match(r'^(typedef|struct|enum|#|namespace|extern|return|if|for|while|switch|class|BOOST|using|template)',L[i]):
                j=i
                while j<len(L) and '{' not in L[j] and ';' not in L[j]: j+=1
                if j<len(L) and '{' in L[j] and ';' not in ''.join(L[i:j]):
                    k=j
                    while k<len(L) and not L[k].startswith('}'): k+=1
                    name=re.search(r'([A-Za-z_:~0-9]+)\s*\(',L[i]); name=name.group(1) if name else '?'
                    tot+=1
                    short=name.split('::')[-1]
                    ok=any(not (b<i+1 or a>k+1) for a,b in cites.get(fn,[])) or re.search(r'\b'+re.escape(short)+r'\b',text)
                    if not ok:
                        miss+=1
                        print('%s:%d-%d %s'%(os.path.relpath(os.path.join(root,fn),R),i+1,k+1,name))
                    i=k
            i+=1
print(tot,'functions,',miss,'not cited')
