#!/usr/bin/env python3
"""Transcribe the tables of /repo into Lean (text parsing, nothing is executed)."""
import ast
from decimal import Decimal
from pathlib import Path

SRC = Path("/repo/src/tad_dftd4")
OUT = Path(__file__).resolve().parent.parent / "lean" / "Verif" / "Data"


def number(node, lines):
    """Decimal text of a numeric literal."""
    if isinstance(node, ast.UnaryOp) and isinstance(node.op, ast.USub):
        return -number(node.operand, lines)
    if isinstance(node, ast.UnaryOp) and isinstance(node.op, ast.UAdd):
        return number(node.operand, lines)
    assert isinstance(node, ast.Constant) and node.lineno == node.end_lineno
    return Decimal(lines[node.lineno - 1][node.col_offset : node.end_col_offset])


def value(node, lines):
    if isinstance(node, ast.List):
        return [value(x, lines) for x in node.elts]
    return number(node, lines)


def tables(path):
    """All `name = torch.tensor([...])` and `name = [...]` of a file."""
    text = path.read_text()
    lines = text.splitlines()
    out = {}
    for n in ast.walk(ast.parse(text)):
        if isinstance(n, ast.Assign) and isinstance(n.targets[0], ast.Name):
            v = n.value
            if isinstance(v, ast.Call) and v.args and isinstance(v.args[0], ast.List):
                out[n.targets[0].id] = (value(v.args[0], lines), n.lineno, n.end_lineno)
            elif isinstance(v, ast.List) and n.targets[0].id.startswith("_") and not n.targets[0].id.startswith("__"):
                out[n.targets[0].id] = (value(v, lines), n.lineno, n.end_lineno)
    return out


def scaled(x, digits):
    y = x * (Decimal(10) ** digits)
    assert y == y.to_integral_value(), x
    return int(y)


def row(r, digits):
    return "[" + ", ".join(str(scaled(x, digits)) for x in r) + "]"


def wrap(s, width=99, indent="   "):
    out, line = [], ""
    for tok in s.split(" "):
        if len(line) + len(tok) + 1 > width:
            out.append(line)
            line = indent + tok
        else:
            line = line + " " + tok if line else tok
    out.append(line)
    return "\n".join(out)


def emit(fname, title, src, items):
    """items: list of (lean name, type, rows, digits, cite); every row is its own definition."""
    body = ["/-!", f"# {title}", "", f"Generated by `tools/gen_data.py` from `{src}`; do not edit.", "-/", "",
            "namespace TadDftd4.Data", ""]
    for name, ty, data, digits, cite in items:
        body.append(f"/-- `{cite}`, times `10^{digits}` -/")
        if data and isinstance(data[0], list) and data[0] and isinstance(data[0][0], list):
            names = []
            for z, mat in enumerate(data):
                nm = f"{name}{z}"
                names.append(nm)
                rows = ", ".join(row(r, digits) for r in mat)
                doc = "" if z == 0 else f"/-- `{cite}`, row {z} -/\n"
                body.append(doc + wrap(f"def {nm} : List (List {ty}) := [{rows}]"))
            body.append(f"/-- `{cite}`, times `10^{digits}` -/")
            body.append(wrap(f"def {name} : List (List (List {ty})) := [{', '.join(names)}]"))
        elif data and isinstance(data[0], list):
            if len(data) * len(data[0]) > 2000:
                names = []
                for z, r in enumerate(data):
                    nm = f"{name}{z}"
                    names.append(nm)
                    doc = "" if z == 0 else f"/-- `{cite}`, row {z} -/\n"
                    body.append(doc + wrap(f"def {nm} : List {ty} := {row(r, digits)}"))
                body.append(f"/-- `{cite}`, times `10^{digits}` -/")
                body.append(wrap(f"def {name} : List (List {ty}) := [{', '.join(names)}]"))
            else:
                rows = ",\n   ".join(row(r, digits) for r in data)
                body.append(f"def {name} : List (List {ty}) := [\n   {rows}]")
        else:
            body.append(wrap(f"def {name} : List {ty} := {row(data, digits)}"))
        body.append("")
    body.append("end TadDftd4.Data\n")
    (OUT / fname).write_text("\n".join(body))


def main():
    OUT.mkdir(exist_ok=True)
    P = tables(SRC / "reference/d4/params.py")
    Q = tables(SRC / "reference/d4/charge_eeq.py")
    G = tables(SRC / "reference/d4/charge_gfn2.py")

    def item(lean, ty, t, key, digits, path):
        data, a, b = t[key]
        return (lean, ty, data, digits, f"{path}:{a}-{b} {key}")

    p = "reference/d4/params.py"
    emit("Refs.lean", "Reference systems", p, [
        item("refc", "Nat", P, "refc", 0, p),
        item("refsys", "Nat", P, "refsys", 0, p),
        item("refcn", "Nat", P, "refcovcn", 14, p),
        item("refascale", "Nat", P, "refascale", 14, p),
        item("refscount", "Nat", P, "refscount", 1, p),
        item("secscale", "Nat", P, "secscale", 7, p),
        item("secalpha", "Nat", P, "secalpha", 7, p),
    ])
    emit("Alpha.lean", "Reference polarizabilities", p, [item("refalpha", "Nat", P, "refalpha", 7, p)])
    e, g = "reference/d4/charge_eeq.py", "reference/d4/charge_gfn2.py"
    emit("Charges.lean", "Charges of the reference systems", f"{e}, {g}", [
        item("eeqQ", "Int", Q, "clsq", 14, e),
        item("eeqH", "Int", Q, "clsh", 14, e),
        item("gfnQ", "Int", G, "refq", 14, g),
        item("gfnH", "Int", G, "refh", 14, g),
    ])
    w = tables(SRC / "data/wfpair.py")["_wfpair"]
    n = 119
    assert len(w[0]) == n * n
    emit("WfPair.lean", "Pairwise weighting factors of D4S", "data/wfpair.py", [
        ("wfpair", "Nat", [w[0][i * n : (i + 1) * n] for i in range(n)], 9, f"data/wfpair.py:{w[1]}-{w[2]} _wfpair"),
    ])
    r = tables(SRC / "data/r4r2.py")["_r4_over_r2"]
    emit("R4R2.lean", "Expectation values", "data/r4r2.py", [
        ("r4OverR2", "Nat", r[0], 4, f"data/r4r2.py:{r[1]}-{r[2]} _r4_over_r2"),
    ])


if __name__ == "__main__":
    main()
