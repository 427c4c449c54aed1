#!/usr/bin/env python3
"""Run seeded-bug experiments.

usage: seed.py FILE.json      (a list of {"file","old","new","edit","definition","breaks"})

Each mutation is applied to a scratch copy of lean/ (never to /verif itself), the copy is rebuilt
with `lake build`, and the theorems in which an error is reported are collected.  One line is
appended to seeded/LOG.jsonl per mutation.
"""
import json, os, re, shutil, signal, subprocess, sys, threading

ROOT = os.path.dirname(os.path.dirname(os.path.abspath(__file__)))
SCRATCH = os.environ.get("SEED_DIR", "/tmp/seed/lean")

def sync():
    os.makedirs(SCRATCH, exist_ok=True)
    subprocess.run(["rsync", "-a", "--delete", ROOT + "/lean/", SCRATCH + "/"], check=False) \
        if shutil.which("rsync") else \
        subprocess.run("rm -rf %s && cp -a %s/lean %s" % (SCRATCH, ROOT, SCRATCH), shell=True, check=True)
    # the project's own tests are not among the theorems that are to reject a wrong program
    top = os.path.join(SCRATCH, "Verif.lean")
    lines = [l for l in open(top).read().split("\n") if not l.startswith("import Verif.Conform.")]
    open(top, "w").write("\n".join(lines))

def enclosing(path, line):
    name = None
    for i, l in enumerate(open(path).read().split("\n"), 1):
        m = re.match(r"(?:private |protected |@\[.*\] )*(theorem|lemma|def|instance|structure|inductive|example|abbrev)\b\s*(\S*)", l)
        if m:
            if i > line:
                break
            name = m.group(2) if m.group(1) not in ("example",) else "example@%d" % i
    return name

def build(grace=25):
    """lake build, ended `grace` seconds after the first error (the rest of the build would only add to the list)"""
    p = subprocess.Popen(["lake", "build"], cwd=SCRATCH, stdout=subprocess.PIPE, stderr=subprocess.STDOUT, text=True,
                         start_new_session=True)
    out, timer = [], None
    for l in p.stdout:
        out.append(l)
        if timer is None and re.match(r"error: Verif/", l):
            timer = threading.Timer(grace, lambda: os.killpg(p.pid, signal.SIGKILL))
            timer.start()
    rc = p.wait()
    if timer: timer.cancel()
    return (1 if timer else rc), "".join(out)

def run(m):
    p = os.path.join(SCRATCH, m["file"])
    src = open(p).read()
    assert src.count(m["old"]) >= 1, ("pattern not found", m["file"], m["old"])
    assert src.count(m["old"]) == 1 or m.get("multi"), ("pattern not unique", m["file"], m["old"])
    open(p, "w").write(src.replace(m["old"], m["new"]))
    rc, out = build()
    failed = []
    for f, ln in re.findall(r"error: (Verif/\S+?\.lean):(\d+):\d+", out):
        e = enclosing(os.path.join(SCRATCH, f), int(ln))
        s = "%s (%s)" % (e, f)
        if s not in failed:
            failed.append(s)
    open(p, "w").write(src)
    return failed, rc, out

def main():
    muts = json.load(open(sys.argv[1]))
    sync()
    for m in muts:
        try:
            failed, rc, out = run(m)
        except AssertionError as e:
            print("SKIP", e); continue
        rec = {"definition": m["definition"], "file": m["file"], "edit": m["edit"], "breaks": m["breaks"],
               "failed": failed, "tightened": m.get("tightened", [])}
        if "note" in m: rec["note"] = m["note"]
        if rc == 0: rec["survived"] = True
        os.makedirs(ROOT + "/seeded", exist_ok=True)
        open(ROOT + "/seeded/LOG.jsonl", "a").write(json.dumps(rec) + "\n")
        print(("KILLED " if rc else "SURVIVED ") + m["definition"], "|", m["edit"], "|", failed[:4], flush=True)

main()
