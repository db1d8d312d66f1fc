import json,sys
def add(id,title,st,q,why,anch,note=None,status="auto"):
    ids=[json.loads(l)['id'] for l in open('/verif/properties.jsonl')]
    if id not in ids:
        open('/verif/properties.jsonl','a').write(json.dumps(dict(id=id,title=title,statement=st,quantifier=q,why_tests_cant=why,anchors=anch))+"\n")
    if note is not None:
        n=json.load(open('/verif/tools/notes.json')); n[id]=[status,note]; json.dump(n,open('/verif/tools/notes.json','w'),indent=1)
def note(id,status,text):
    n=json.load(open('/verif/tools/notes.json')); n[id]=[status,text]; json.dump(n,open('/verif/tools/notes.json','w'),indent=1)
