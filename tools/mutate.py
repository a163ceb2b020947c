"""Run seeded bugs against the theorems.

usage: mutate.py MUTANTS.json SCRATCH [id ...]

Each mutant is {id, file, definition, old, new, edit, claim}. The Lean project is copied to SCRATCH, the first occurrence of `old` after the
definition is replaced by `new`, and the project is rebuilt there. One line per mutant is appended to seeded/LOG.jsonl."""
import json, os, re, shutil, signal, subprocess, sys, threading
root = os.path.dirname(os.path.dirname(os.path.abspath(__file__)))
mutants = json.load(open(sys.argv[1]))
scratch = sys.argv[2]
only = set(sys.argv[3:])
logf = os.path.join(root, 'seeded/LOG.jsonl')
done = set()
if os.path.exists(logf):
    done = {json.loads(l).get('id') for l in open(logf) if l.strip()}

def enclosing(path, line):
    name = None
    for n, l in enumerate(open(path), 1):
        m = re.match(r'\s*(?:private |protected |@\[[^\]]*\] )*(?:theorem|lemma|example|def|instance)\s*(\S*)', l)
        if m: name = m.group(1) if m.group(1) not in ('', ':') else f'example at line {n}'
        if n >= line: break
    return name

for m in mutants:
    if (only and m['id'] not in only) or m['id'] in done: continue
    dst = os.path.join(scratch, 'lean')
    shutil.rmtree(dst, ignore_errors=True)
    shutil.copytree(os.environ.get('MUTSRC', os.path.join(root, 'lean')), dst, symlinks=True)
    f = os.path.join(dst, m['file'])
    s = open(f).read()
    p = re.search(r'def ' + re.escape(m['definition']) + r'\b', s)
    if not p: print(m['id'], 'definition not found'); continue
    at = s.find(m['old'], p.start())
    nxt = re.search(r'\n(?:/--|def |theorem |end )', s[p.start() + 4:])
    if at < 0 or (nxt and at > p.start() + 4 + nxt.start()): print(m['id'], 'text not found'); continue
    open(f, 'w').write(s[:at] + m['new'] + s[at + len(m['old']):])
    out = subprocess.Popen(['timeout', '4000', 'lake', 'build'], cwd=dst, stdout=subprocess.PIPE, stderr=subprocess.STDOUT, text=True,
                           start_new_session=True)
    txt, stop = '', None
    for line in out.stdout:
        txt += line
        if stop is None and re.search(r'error: (?:\S*/)?Verif/', line):
            # one failure settles the matter; a little longer shows what else fails
            stop = threading.Timer(float(os.environ.get('MUTGRACE', '150')), lambda: os.killpg(out.pid, signal.SIGKILL))
            stop.start()
    out.wait()
    if stop: stop.cancel()
    failed = []
    for e in re.finditer(r'error: (?:\S*/)?(Verif/\S+?\.lean):(\d+):', txt):
        name = enclosing(os.path.join(dst, e.group(1)), int(e.group(2)))
        x = f'{e.group(1)}: {name}'
        if x not in failed: failed.append(x)
    blocked = [b for b in re.findall(r'(?:✖|error:|-) .*?(Verif\.Props\.\w+)', txt)]
    rec = {'id': m['id'], 'definition': f"{m['file']}: {m['definition']}", 'edit': m['edit'], 'claim_broken': m['claim'],
           'survived': out.returncode == 0, 'theorems_failed': failed, 'theorems_tightened': []}
    open(logf, 'a').write(json.dumps(rec) + '\n')
    print(m['id'], 'SURVIVED' if out.returncode == 0 else failed[:4], flush=True)
