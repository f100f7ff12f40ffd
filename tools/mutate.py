#!/usr/bin/env python3
"""Apply seeded bugs to a scratch copy of the model and record which theorems fail.

usage: mutate.py MUTATIONS.json TARGET_MODULE [--log]   (exactly one target module)

MUTATIONS.json: list of {"file", "old", "new", "definition", "edit", "claim", "tightened"(optional)}.
The copy lives in /tmp/w/mut; nothing in /verif/lean is changed.
"""
import json, os, re, shutil, subprocess, sys

SRC = "/verif/lean"
DST = "/tmp/w/mut"


def enclosing(path, line):
    name = None
    for i, l in enumerate(open(path, encoding="utf8"), 1):
        m = re.match(r"\s*(?:@\[.*\]\s*)?(?:private\s+)?(?:noncomputable\s+)?(theorem|lemma|def|example|instance|structure|inductive)\b\s*(\S*)", l)
        if m and i <= line:
            name = m.group(2) if m.group(1) != "example" else "example"
        if i > line:
            break
    return name


def main():
    muts = json.load(open(sys.argv[1]))
    target = sys.argv[2]
    log = "--log" in sys.argv
    if not os.path.exists(DST):
        shutil.copytree(SRC, DST, symlinks=True)
    for m in muts:
        subprocess.run(["rsync", "-a", "--delete", "--exclude", ".lake", SRC + "/", DST + "/"], check=False) if shutil.which("rsync") else \
            [shutil.rmtree(DST + "/Verif"), shutil.copytree(SRC + "/Verif", DST + "/Verif")]
        p = f"{DST}/Verif/{m['file']}"
        s = open(p, encoding="utf8").read()
        if s.count(m["old"]) < 1:
            print("NOT FOUND", m["definition"], m["edit"])
            continue
        d = m["definition"].split(".")[-1]
        mm = re.search(r"(?:def|abbrev|inductive|structure)\s+(?:\S+\.)?" + re.escape(d) + r"(?![\w.'])", s)
        k = mm.start() if mm and m["old"] in s[mm.start():] else 0
        s = s[:k] + s[k:].replace(m["old"], m["new"], 1)
        open(p, "w", encoding="utf8").write(s)
        r = subprocess.run(["lake", "build", target], cwd=DST, capture_output=True, text=True)
        failed = []
        bad = [e for e in re.findall(r"error: (?:\./)?Verif/(\S+?\.lean):", r.stdout + r.stderr) if e == m["file"] and "Model/" in e]
        if bad:
            print("!!! INVALID (model does not compile)", m["definition"], "|", m["edit"], flush=True)
            continue
        for e in re.finditer(r"error: (?:\./)?(Verif/\S+?\.lean):(\d+):", r.stdout + r.stderr):
            n = enclosing(f"{DST}/{e.group(1)}", int(e.group(2)))
            if n not in failed:
                failed.append(n)
        print(("FAILS " if failed else "*** SURVIVES ***"), m["definition"], "|", m["edit"], "|", failed, flush=True)
        if log:
            with open("/verif/seeded/LOG.jsonl", "a") as f:
                f.write(json.dumps({"definition": m["definition"], "edit": m["edit"], "claim": m["claim"],
                                    "failed": failed, "tightened": m.get("tightened", [])}) + "\n")


main()
