#!/usr/bin/env python3
"""Check that the source lines cited in the comments of the model exist and start where the named function starts."""
import re, sys, glob, os
ROOT = "/repo"
names = {}
for p in glob.glob(ROOT + "/src/**/*.cpp", recursive=True) + glob.glob(ROOT + "/include/**/*.?pp", recursive=True):
    names.setdefault(os.path.basename(p), []).append(p)
bad = total = 0
for f in sorted(glob.glob("/verif/lean/Verif/Model/*.lean")):
    text = open(f).read()
    for doc in re.finditer(r"/--(.*?)-/", text, re.S):
        for m in re.finditer(r"`([^`]+)`[^`()]*(?:\([^`()]*\))?[^`()]*\(`([^`]+\.[ch]pp)` (\d+)(?:-(\d+))?", doc.group(1)):
            name, path, a, b = m.group(1), m.group(2), int(m.group(3)), int(m.group(4) or m.group(3))
            total += 1
            c = [p for p in names.get(os.path.basename(path), []) if p.endswith("/" + path)]
            src = [p for p in c if "/test/" not in p]
            where = f"{os.path.basename(f)}: `{name}` ({path} {a}-{b})"
            if len(src) != 1:
                bad += 1; print(where, "->", len(src), "files"); continue
            lines = open(src[0]).read().split("\n")
            if b > len(lines) or a > b:
                bad += 1; print(where, "-> out of range"); continue
            key = re.sub(r"\s*\(.*", "", name).replace("operator ", "operator").split("::")[-1].split(" ")[0]
            head = "\n".join(lines[a - 1:a + 2])
            if "loop" in doc.group(1) or "ctor" in name: continue
            if key not in head:
                bad += 1; print(where, "->", lines[a - 1].strip()[:70])
            elif lines[b - 1].strip() not in ("}", "};") and b != a and path.endswith(".cpp"):
                bad += 1; print(where, "-> ends at", repr(lines[b - 1].strip()[:50]))
print(total, "citations,", bad, "to look at")
