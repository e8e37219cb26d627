"""Report declarations with the same full name in two modules."""
import re,glob,collections
seen=collections.defaultdict(set)
for f in glob.glob('/verif/lean/Verif/**/*.lean',recursive=True):
    ns=[]
    for l in open(f):
        if m:=re.match(r'(namespace|section)\s*(\S*)',l): ns.append((m[1],m[2]))
        elif m:=re.match(r'end\b',l) :
            if ns: ns.pop()
        elif m:=re.match(r'(?:@\[[^\]]*\]\s*)?(?:noncomputable )?(?:theorem|def|structure|inductive|abbrev|instance)\s+([^\s:({\[]+)',l):
            seen['.'.join([b for a,b in ns if a=='namespace']+[m[1]])].add(f)
for k,v in sorted(seen.items()):
    if len(v)>1: print(k,v)
