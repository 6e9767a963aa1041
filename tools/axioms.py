"""Write AXIOMS.txt: the axioms each theorem of MANIFEST.json depends on (needs a finished build)."""
import json, os, re, subprocess, tempfile
root = os.path.dirname(os.path.dirname(os.path.abspath(__file__)))
names = [t for c in json.load(open(root + "/MANIFEST.json"))["claims"] for t in c["theorems"]]
names = sorted(set(names))
with tempfile.NamedTemporaryFile("w", suffix=".lean", delete=False) as f:
    f.write("import Verif\n" + "".join(f"#print axioms {n}\n" for n in names))
out = subprocess.run(["lake", "env", "lean", f.name], cwd=root + "/lean", capture_output=True, text=True)
if out.returncode:
    raise SystemExit(out.stdout[-3000:] + out.stderr)
text = re.sub(r"\n\s+", " ", out.stdout)
open(root + "/AXIOMS.txt", "w").write(text)
used = set(re.findall(r"[\w.]+(?=[,\]])", " ".join(re.findall(r"\[.*?\]", text))))
print(len(text.splitlines()), "theorems; axioms:", sorted(used))
