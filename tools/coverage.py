#!/usr/bin/env python3
"""Print COVERAGE.md: for each function of /repo outside tests, the Lean definitions whose comment cites its lines."""
import os, re, sys

REPO, LEAN = "/repo", os.path.join(os.path.dirname(os.path.abspath(__file__)), "..", "lean", "Verif")

def functions(path):
    """(name, owner, first line, last line) of the functions of a file, tests left out."""
    lines = open(path).read().split("\n")
    owner, out, i, test = "", [], 0, False
    depth = 0
    stack = []  # (depth, owner)
    while i < len(lines):
        l = lines[i]
        if re.match(r"\s*#\[cfg\(test\)\]", l):
            break
        m = re.match(r"\s*(?:pub )?(?:unsafe )?(impl|trait)\b(.*)", l)
        if m:
            t = m.group(2)
            k = i
            while "{" not in t:
                k += 1
                t += " " + lines[k].strip()
            t = t[:t.index("{")]
            t = t.split(" where ")[0]
            d = 0
            if m.group(1) == "impl" and t.lstrip().startswith("<"):
                t = t.lstrip()
                for j, ch in enumerate(t):
                    d += ch == "<"
                    d -= ch == ">" and t[j - 1] != "-"
                    if d == 0:
                        t = t[j + 1:]
                        break
            owner = re.sub(r"\s+", " ", t).strip()
            if m.group(1) == "trait":
                owner = "trait " + owner
        m = re.match(r"\s*(?:pub(?:\([a-z]+\))? )?(?:const )?fn (\w+)", l)
        if m:
            k, d, seen = i, 0, False
            while True:
                for ch in lines[k]:
                    if ch == "{":
                        d += 1; seen = True
                    elif ch == "}":
                        d -= 1
                if (seen and d == 0) or (not seen and lines[k].rstrip().endswith(";")):
                    break
                k += 1
            out.append((m.group(1), owner, i + 1, k + 1, seen))
            i = k
        i += 1
    return out

def citations():
    out = []
    for root, _, files in os.walk(os.path.join(LEAN, "Model")):
        for f in sorted(files):
            p = os.path.join(root, f)
            text = open(p).read()
            ns = os.path.relpath(p, LEAN)
            for m in re.finditer(r"/--(.*?)-/\s*(?:@\[[^\]]*\]\s*)?(?:noncomputable |private |protected )*(?:def|structure|inductive|class|instance|abbrev)\s*(?:\(priority[^)]*\)\s*)?([^\s:({\[]*)", text, re.S):
                name = m.group(2) or "(instance)"
                for c in re.finditer(r"((?:crates|third-parties)/[\w/.-]*?\.rs)((?::\d+(?:-\d+)?)(?:,\s*:?\d+(?:-\d+)?)*)", m.group(1)):
                    for r in re.finditer(r"(\d+)(?:-(\d+))?", c.group(2)):
                        a = int(r.group(1)); b = int(r.group(2) or a)
                        out.append((c.group(1), a, b, name, ns))
    return out

cites = citations()
rows, missing, total = [], [], 0
for root, dirs, files in sorted(os.walk(REPO)):
    for f in sorted(files):
        p = os.path.join(root, f)
        rel = os.path.relpath(p, REPO)
        if not f.endswith(".rs") or "/tests/" in rel:
            continue
        for name, owner, a, b, body in functions(p):
            total += 1
            hit = []
            for (file, x, y, n, ns) in cites:
                if file == rel and x <= b and a <= y and (n, ns) not in hit:
                    hit.append((n, ns))
            where = ", ".join(f"`{n}`" for n, _ in hit)
            mods = sorted({ns for _, ns in hit})
            if not hit:
                missing.append(f"{rel}:{a} {owner} {name}")
            rows.append(f"| `{rel}:{a}` | {owner + '::' if owner else ''}`{name}`{'' if body else ' (declared)'} | {where} | {', '.join(mods)} |")
print("# Functions of the code and their definitions in the model\n")
print("Printed by `tools/coverage.py` from the citations in the comments of `lean/Verif/Model`.\n")
print("| function at | name | definitions | module |\n|---|---|---|---|")
print("\n".join(rows))
print(f"{total} functions, {len(missing)} without a citation", *missing, sep="\n", file=sys.stderr)
