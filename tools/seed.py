#!/usr/bin/env python3
"""Seeded bugs: apply an edit to the model in a scratch copy, rebuild, and record which theorems fail.
usage: seed.py edits.json [first]   (edits: list of {file, old, new, definition, edit, claim}); appends to seeded/LOG.jsonl"""
import json, os, re, subprocess, sys, shutil
SRC = '/verif/lean'; DST = '/tmp/scratch/lean'
def names(path, line):
    best = None
    for i, l in enumerate(open(path), 1):
        if i > line: break
        m = re.match(r'\s*(?:@\[.*?\]\s*)?(?:private |protected |noncomputable )*(theorem|def|instance|example|abbrev|inductive|structure)\s*(\S*)', l)
        if m: best = (m.group(1) + ' ' if m.group(1) in ('example',) else '') + m.group(2)
    return best
def main():
    edits = json.load(open(sys.argv[1]))
    os.makedirs('/tmp/scratch', exist_ok=True)
    for e in edits[int(sys.argv[2]) if len(sys.argv) > 2 else 0:]:
        shutil.rmtree(DST, ignore_errors=True); subprocess.run(['cp', '-a', SRC, DST], check=True)
        f = os.path.join(DST, 'Verif/Model', e['file'])
        s = open(f).read()
        if s.count(e['old']) != e.get('count', 1):
            print('BAD EDIT', e['definition'], s.count(e['old'])); continue
        open(f, 'w').write(s.replace(e['old'], e['new']))
        r = subprocess.run(['lake', 'build'], cwd=DST, capture_output=True, text=True)
        out = r.stdout + r.stderr
        failed = []
        for m in re.finditer(r'error: (Verif/\S+\.lean):(\d+):', out):
            n = names(os.path.join(DST, m.group(1)), int(m.group(2)))
            x = f"{os.path.basename(m.group(1))[:-5]}: {n}"
            if x not in failed: failed.append(x)
        notbuilt = sorted(set(re.findall(r'^- (Verif\S*)', out, re.M)))
        rec = {"definition": e['definition'], "edit": e['edit'], "claim": e['claim'], "theorems_failed": failed[:12],
               "theorems_tightened": e.get('tightened', [])}
        if r.returncode == 0: rec["survived"] = True
        print(json.dumps(rec), flush=True)
        with open('/verif/seeded/LOG.jsonl', 'a') as g: g.write(json.dumps(rec, ensure_ascii=False) + '\n')
main()
