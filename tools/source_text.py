#!/usr/bin/env python3
"""Write, or with --check compare, the modules that hold source text of /repo character by character."""
import os
import sys

REPO = os.environ.get("REPO", "/repo")
OUT = os.path.join(os.path.dirname(os.path.abspath(__file__)), "..", "lean", "Verif", "Source")

MODULES = {
    "AsmText": ("The assembly files", [("amd64Lines", "sha1cdblock_amd64.s"), ("arm64Lines", "sha1cdblock_arm64.s")], "chars!"),
    "GoText": ("The Go files", [
        ("constLines", "internal/const.go"), ("ubcConstLines", "ubc/const.go"), ("ubcLines", "ubc/ubc.go"),
        ("sha1cdLines", "sha1cd.go"), ("genericLines", "sha1cdblock_generic.go"),
        ("blockAmd64Lines", "sha1cdblock_amd64.go"), ("blockArm64Lines", "sha1cdblock_arm64.go"),
        ("blockNoasmLines", "sha1cdblock_noasm.go")], "text!"),
    "CText": ("The C files", [
        ("ubcHeaderLines", "cgo/ubc_check.h"), ("ubcCLines", "cgo/ubc_check.c"),
        ("sha1HeaderLines", "cgo/sha1.h"), ("sha1CLines", "cgo/sha1.c")], "text!"),
}


def literal(line):
    hashes = "#"
    while '"' + hashes in line:
        hashes += "#"
    return f'r{hashes}"{line}"{hashes}'


LONG_LINE = 2000
MANY_LINES = 800


def pieces(line):
    return [line[i:i + LONG_LINE] for i in range(0, len(line), LONG_LINE)] or [""]


def joined(names):
    return " ++ (".join(names) + ")" * (len(names) - 1)


def module(title, files, how):
    out = ["import Verif.Source.Chars", "", f"/-! {title}, line by line, written by `tools/source_text.py`. -/", "",
           "namespace Verif.Source", ""]
    for name, path in files:
        with open(os.path.join(REPO, path), encoding="utf-8", newline="") as f:
            lines = f.read().split("\n")
        if lines and lines[-1] == "":
            lines.pop()
        parts = [(i, lines[i:i + MANY_LINES]) for i in range(0, len(lines), MANY_LINES)]
        for k, (first, part) in enumerate(parts):
            terms = []
            for n, l in enumerate(part, first + 1):
                if len(l) <= LONG_LINE:
                    terms.append(f"  {how} " + literal(l))
                    continue
                names = [f"{name}_{n}_{i + 1}" for i in range(len(pieces(l)))]
                for piece_name, piece in zip(names, pieces(l)):
                    out.append(f"/-- part of {path}:{n} -/")
                    out.append(f"def {piece_name} : List Nat := {how} {literal(piece)}")
                    out.append("")
                out.append(f"/-- {path}:{n} -/")
                out.append(f"def {name}_{n} : List Nat := " + joined(names))
                out.append("")
                terms.append(f"  {name}_{n}")
            part_name = name if len(parts) == 1 else f"{name}{k + 1}"
            out.append(f"/-- {path}:{first + 1}-{first + len(part)} -/")
            out.append(f"def {part_name} : List (List Nat) := [")
            out.append(",\n".join(terms) + "]")
            out.append("")
        if len(parts) > 1:
            out.append(f"/-- {path}:1-{len(lines)} -/")
            out.append(f"def {name} : List (List Nat) := " + joined([f"{name}{k + 1}" for k in range(len(parts))]))
            out.append("")
    out += ["end Verif.Source", ""]
    return "\n".join(out)


bad = 0
for name, (title, files, how) in MODULES.items():
    path = os.path.join(OUT, name + ".lean")
    text = module(title, files, how)
    if "--check" in sys.argv:
        with open(path, encoding="utf-8", newline="") as f:
            same = f.read() == text
        print(name, "ok" if same else "DIFFERS")
        bad |= not same
    else:
        with open(path, "w", encoding="utf-8", newline="") as f:
            f.write(text)
sys.exit(bad)
