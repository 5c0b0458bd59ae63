"""Write /verif/MANIFEST.json from the table below (run from anywhere)."""
import json, os
C = {}
def claim(p, status, theorems, note=""):
    C[p] = dict(property=p, status=status, theorems=["Verif." + t for t in theorems.split()], note=note)

here = os.path.dirname(os.path.abspath(__file__))
exec(open(os.path.join(here, "claims.py")).read())
out = {"claims": [C[k] for k in sorted(C)]}
with open(os.path.join(here, "..", "MANIFEST.json"), "w") as f:
    json.dump(out, f, indent=1)
    f.write("\n")
print(len(C), "claims")
