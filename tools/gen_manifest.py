"""Write MANIFEST.json.  Each entry: property -> (status, theorems, note)."""
import json, os

E = {}

def c(pid, status, theorems, note=""):
    E[pid] = {"property": pid, "status": status, "theorems": theorems, "note": note}

here = os.path.dirname(os.path.abspath(__file__))
exec(open(os.path.join(here, "manifest_entries.py")).read())
out = {"claims": [E[k] for k in sorted(E)]}
with open(os.path.join(here, "..", "MANIFEST.json"), "w") as f:
    json.dump(out, f, indent=1)
    f.write("\n")
print(len(E), "claims")
