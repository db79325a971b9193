#!/usr/bin/env python3
"""Compares what the Lean files say the Go files contain with the files in /repo, byte for byte.

* lean/Verif/Source/Files.lean has the text of six files.
* lean/Verif/Words/*.lean have the words of wordlists.go; the text of that file is written out from them.
"""
import pathlib
import re
import sys

here = pathlib.Path(__file__).resolve().parent.parent
repo = pathlib.Path("/repo")

text = (here / "lean/Verif/Source/Files.lean").read_text()
files = re.findall(r'/-- /repo/(\S+), .*?-/\ndef \w+ : String := r#"(.*?)"#', text, re.S)
bad = [name for name, body in files if (repo / name).read_bytes() != body.encode()]

lists = []
for path in (here / "lean/Verif/Words").glob("*.lean"):
    found = re.search(r"wordlists\.go:(\d+)-\d+ `(\w+)`.*?List Nat := \[(.*?)\]", path.read_text(), re.S)
    if found:
        numbers = re.findall(r"^\s*0x([0-9a-f]+),?", found[3], re.M)
        words = [bytes.fromhex(n if len(n) % 2 == 0 else "0" + n) for n in numbers]
        lists.append((int(found[1]), found[2].encode(), words))
out = b"package btc\n\ntype Wordlist []string\n"
for _, name, words in sorted(lists):
    out += b"\nvar " + name + b" = Wordlist{\n" + b"".join(b'\t"' + w + b'",\n' for w in words) + b"}\n"
if (repo / "wordlists.go").read_bytes() != out:
    bad.append("wordlists.go")

print(len(files), "texts and", len(lists), "word lists compared;", "different: " + ", ".join(bad) if bad else "all equal")
sys.exit(1 if bad or len(files) != 6 or len(lists) != 9 else 0)
