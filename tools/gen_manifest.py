#!/usr/bin/env python3
"""Writes MANIFEST.json and checks that every named theorem exists in lean/Verif."""
import json, re, glob, sys
C = []
def c(p, status, ths, note=""):
    C.append({"property": p, "status": status, "theorems": ["F15." + t for t in ths.split()], "note": note})
exec(open(__file__.replace("gen_manifest.py", "manifest_data.py")).read())
have = set()
for f in glob.glob("lean/Verif/**/*.lean", recursive=True):
    have |= {"F15." + m for m in re.findall(r"^theorem ([\w.']+)", open(f).read(), re.M)}
bad = [t for x in C for t in x["theorems"] if t not in have]
if bad: sys.exit("missing: %s" % bad)
ids = [json.loads(l)["id"] for l in open("properties.jsonl")]
miss = [i for i in ids if i not in [x["property"] for x in C]]
if miss: print("no claim for", miss)
C.sort(key=lambda x: x["property"])
json.dump({"claims": C}, open("MANIFEST.json", "w"), indent=1, ensure_ascii=False)
