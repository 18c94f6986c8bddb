#!/usr/bin/env python3
# usage: note.py ID status note...
import json,sys
p='/verif/manifest_notes.json'
d=json.load(open(p)); d[sys.argv[1]]={"status":sys.argv[2],"note":sys.argv[3]}
json.dump(d,open(p,'w'),indent=1,ensure_ascii=False)
