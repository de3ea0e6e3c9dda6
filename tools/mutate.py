#!/usr/bin/env python3
"""Seeded-bug runner: applies one edit at a time to a scratch copy of lean/ and rebuilds it.

usage: mutate.py muts.json [--log]
muts.json: list of {"def", "file", "old", "new", "claim", "tightened"?}
With --log, appends one line per attempt to seeded/LOG.jsonl."""
import json, re, subprocess, sys, os, shutil
ROOT = os.path.dirname(os.path.dirname(os.path.abspath(__file__)))
SCR = os.environ.get("MUT_DIR", "/tmp/mut")

def sync():
    shutil.rmtree(SCR, ignore_errors=True)
    subprocess.run(["cp", "-a", ROOT + "/lean", SCR], check=True)

def enclosing(path, line):
    ls = open(path).read().split("\n")
    for i in range(min(line, len(ls)) - 1, -1, -1):
        m = re.match(r"(?:private |protected |noncomputable )*(theorem|lemma|def|example|instance|abbrev|structure)\s*([^\s:({\[]*)", ls[i])
        if m:
            return m.group(2) if m.group(1) != "example" else "example@%d" % (i + 1)
    return "?"

def main():
    muts = json.load(open(sys.argv[1]))
    log = "--log" in sys.argv
    sync()
    for m in muts:
        p = SCR + "/Verif/" + m["file"]
        src = open(p).read()
        n = src.count(m["old"])
        if n < 1 or (n > 1 and not m.get("all") and "nth" not in m):
            print("!! bad edit (%d matches): %s %r" % (n, m["file"], m["old"])); continue
        if m.get("all"):
            new = src.replace(m["old"], m["new"])
        else:
            k = -1
            for _ in range(m.get("nth", 0) + 1):
                k = src.index(m["old"], k + 1)
            new = src[:k] + m["new"] + src[k + len(m["old"]):]
        open(p, "w").write(new)
        r = subprocess.run(["lake", "build"] + m.get("targets", []), cwd=SCR, capture_output=True, text=True)
        out = r.stdout + r.stderr
        failed = []
        for f, l in re.findall(r"error: (Verif/\S+?\.lean):(\d+):", out):
            d = enclosing(SCR + "/" + f, int(l))
            t = os.path.basename(f)[:-5] + "." + d
            if t not in failed: failed.append(t)
        open(p, "w").write(src)
        print(("KILLED " if failed else ("ERR " + out[-500:] if r.returncode else "SURVIVED ")), m["def"], "|", m["claim"], "|", failed[:8], flush=True)
        if log:
            with open(ROOT + "/seeded/LOG.jsonl", "a") as fh:
                fh.write(json.dumps({"definition": m["def"], "edit": m.get("edit") or ("%s  ->  %s" % (m["old"].strip(), m["new"].strip())),
                    "claim": m["claim"], "failed": failed, "survived": not failed, "tightened": m.get("tightened", [])}) + "\n")
main()
