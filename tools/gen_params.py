"""Transcribe the damping parameter files into Lean (parsed as TOML, numbers as exact decimals)."""
import tomllib

SRC = "/repo/src/tad_dftd4/damping/parameters/"
OUT = "/verif/lean/Verif/Data/Params.lean"


def dec(x):
    s = str(x)
    neg = s.startswith("-")
    s = s.lstrip("-")
    a, _, b = s.partition(".")
    assert (a + b).isdigit(), x
    m = int(a + b)
    return f".num ⟨{'-' if neg else ''}{m}, {len(b)}⟩"


class F(str):
    pass


def block(b):
    items = []
    for k, v in b.items():
        items.append(f'("{k}", {dec(v) if isinstance(v, (F, int)) else f".str {chr(34)}{v}{chr(34)}"})')
    return "[" + ", ".join(items) + "]"


def table(d, ind):
    out = []
    for m, vs in d.items():
        if m in ("reference",):
            continue
        vv = (",\n" + " " * (ind + 2)).join(f'("{v}", {block(b)})' for v, b in vs.items())
        out.append(f'("{m}", [{vv}])')
    return "[" + (",\n" + " " * ind).join(out) + "]"


res = ['''import Verif.Model.Params

/-!
# Damping parameters

Generated by `tools/gen_params.py` from `damping/parameters/{d3,d4}.toml`; do not edit.
-/

namespace TadDftd4.Data
''']
for m in ("d3", "d4"):
    t = tomllib.load(open(SRC + m + ".toml", "rb"), parse_float=F)
    d = t["default"]
    var = [(k, v) for k, v in d.items() if k != "parameter"]
    vs = "[" + ", ".join(f'("{k}", [' + ", ".join(f'"{x}"' for x in v) + "])" for k, v in var) + "]"
    fs = ",\n    ".join(f'("{f}", {table(s, 6)})' for f, s in t["parameter"].items())
    res.append(f"/-- `{m}.toml` -/\ndef {m}File : ParamFile Block where\n  variants := {vs}\n"
               f"  defaults := {table(d['parameter'], 4)}\n  functionals := [\n    {fs}]\n")
res.append('''/-- The files next to `loader.py`. -/
def paramFiles (method : String) : Option (ParamFile Block) :=
  if method = "d3" then some d3File else if method = "d4" then some d4File else none

end TadDftd4.Data
''')
open(OUT, "w").write("\n".join(res))
