# usage: addclaim.py spec.json : {id,title,statement,quantifier,why,anchors,status,theorems,note,plan}
import json,sys
for d in json.load(open(sys.argv[1])):
    p='/verif/tools/props.py'; s=open(p).read()
    s=s.replace("#MOREP","p(%s,%s,\n%s,\n%s,\n%s,\n%s)\n#MOREP"%(json.dumps(d["id"]),json.dumps(d["title"],ensure_ascii=False),json.dumps(d["statement"],ensure_ascii=False),json.dumps(d["quantifier"],ensure_ascii=False),json.dumps(d["why"],ensure_ascii=False),json.dumps(d["anchors"])))
    open(p,'w').write(s)
    p='/verif/tools/manifest.py'; s=open(p).read()
    s=s.replace("#MORE","c(%s, %s, %s, %s)\n#MORE"%(json.dumps(d["id"]),json.dumps(d["status"]),json.dumps(d["theorems"]),json.dumps(d["note"],ensure_ascii=False)),1)
    open(p,'w').write(s)
    p='/verif/tools/design_plan.json'; j=json.load(open(p)); j[d["id"]]=d["plan"]; json.dump(j,open(p,'w'),indent=0,ensure_ascii=False)
