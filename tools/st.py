import json,sys
p='/verif/tools/status.json'; d=json.load(open(p))
for a in sys.argv[1:]:
    k,s,n=a.split('|',2); d[k]=[s,n]
json.dump(dict(sorted(d.items())),open(p,'w'),indent=1,ensure_ascii=False)
