"""Seeded-bug runner: applies one edit to a scratch copy of the Lean project, rebuilds and reports which theorems no longer check.

usage: mutate.py MUTANTS.json   (list of {"file","def","old","new","edit","claim"}); appends to seeded/LOG.jsonl unless --dry; --fast stops a build soon after its first error
"""
import json, os, re, shutil, signal, subprocess, sys, threading
SRC = os.environ.get("MUT_SRC", "/verif/lean"); DST = "/tmp/mutant/lean"; LOG = "/verif/seeded/LOG.jsonl"
def sync():
    os.makedirs(DST, exist_ok=True)
    subprocess.run(["rsync", "-a", "--delete", SRC + "/", DST + "/"], check=True) if shutil.which("rsync") else \
        (shutil.rmtree(DST), shutil.copytree(SRC, DST, symlinks=True))
def enclosing(path, line):
    ls = open(path).read().split("\n")
    for i in range(min(line, len(ls)) - 1, -1, -1):
        mt = re.match(r"\s*(?:@\[.*\]\s*)?(?:private |noncomputable )*(theorem|lemma|def|example|instance|structure|abbrev)\s*([^\s:({\[]*)", ls[i])
        if mt: return (mt.group(2) or mt.group(1) + "@%d" % (i + 1))
    return "?"
FAST = "--fast" in sys.argv
def build():
    """the output of `lake build`; with --fast the build is ended twenty seconds after the first error"""
    if not FAST:
        r = subprocess.run(["nice", "lake", "build"], cwd=DST, capture_output=True, text=True)
        return r.stdout + r.stderr, r.returncode
    pr = subprocess.Popen(["nice", "lake", "build"], cwd=DST, stdout=subprocess.PIPE, stderr=subprocess.STDOUT, text=True, start_new_session=True)
    lines, armed = [], False
    for l in pr.stdout:
        lines.append(l)
        if l.startswith("error: Verif/") and not armed:
            armed = True
            t = threading.Timer(20, lambda: pr.poll() is None and os.killpg(pr.pid, signal.SIGKILL)); t.daemon = True; t.start()
    return "".join(lines), pr.wait()
def run(mu):
    sync()
    p = os.path.join(DST, mu["file"]); s = open(p).read()
    assert s.count(mu["old"]) >= 1, ("pattern not found", mu["old"])
    s2 = s.replace(mu["old"], mu["new"], mu.get("count", 1)); assert s2 != s
    open(p, "w").write(s2)
    for e in mu.get("also", []):  # the same edit in definitions that restate the edited one
        q = os.path.join(DST, e["file"]); t = open(q).read(); assert e["old"] in t, ("pattern not found", e["old"])
        open(q, "w").write(t.replace(e["old"], e["new"], 1))
    out, rc = build()
    failed = []
    for mt in re.finditer(r"error: (Verif/[^:]+):(\d+):(\d+)", out):
        n = enclosing(os.path.join(DST, mt.group(1)), int(mt.group(2)))
        key = os.path.basename(mt.group(1))[:-5] + "." + n
        if key not in failed: failed.append(key)
    return rc, failed, out
def affected(failed):
    """property theorems whose proofs use a failed lemma, directly or through other lemmas (by name)"""
    blocks = {}
    for root, _, fs in os.walk(os.path.join(SRC, "Verif")):
        for f in fs:
            if not f.endswith(".lean"): continue
            cur = None
            for l in open(os.path.join(root, f)):
                mt = re.match(r"\s*(?:@\[.*\]\s*)?(?:private |noncomputable )*(theorem|lemma|def|instance)\s+([^\s:({\[]+)", l)
                if mt: cur = mt.group(2); blocks.setdefault(cur, ["", "/Props/" in root + "/", mt.group(1)])
                if cur: blocks[cur][0] += l
    toks = {n: set(re.findall(r"[\w.'₀-₉]+", b[0])) for n, b in blocks.items()}
    bad = {x.split(".", 1)[1] for x in failed}
    while True:
        new = {n for n, t in toks.items() if n not in bad and blocks[n][2] == "theorem" and any(x in bad or x.split(".")[-1] in bad or x.split(".")[0] in bad for x in t)}
        if not new: break
        bad |= new
    return sorted(n for n in bad if n in blocks and blocks[n][1] and re.match(r"C\d\d", n))
dry = "--dry" in sys.argv
for mu in json.load(open(sys.argv[1])):
    try: rc, failed, out = run(mu)
    except AssertionError as e: print("SKIPPED", mu["def"], e, flush=True); continue
    if re.search(r"error: " + re.escape(mu["file"]) + ":", out): print("INVALID", mu["def"], mu["edit"], flush=True); continue
    rec = {"definition": mu["def"], "edit": mu["edit"], "claim_broken": mu["claim"], "theorems_failed": failed, "property_theorems_affected": affected(failed), "theorems_tightened": mu.get("tightened", [])}
    if mu.get("note"): rec["note"] = mu["note"]
    print(json.dumps(rec, ensure_ascii=False), "" if failed else "  <<<<< SURVIVED", flush=True)
    if not dry and failed: open(LOG, "a").write(json.dumps(rec, ensure_ascii=False) + "\n")
