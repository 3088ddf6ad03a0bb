#!/usr/bin/env python3
"""Try wrong programs against the theorems.

usage: mutate.py SCRATCH MUTANTS.json LOG.jsonl [id ...]

SCRATCH is a copy of /verif/lean (with its .lake) outside /verif, with SCRATCH.orig beside it.  DEPS (SCRATCH/../deps.tsv) lists,
per property theorem, the theorems its proof uses.  Every mutant replaces one piece of text in one file; the project is built, and the
declarations with errors and the property theorems that use them are logged."""
import json, os, re, signal, subprocess, sys, threading, time

def decl_at(path, line):
    ls = open(path).read().split('\n')
    for i in range(min(line, len(ls)) - 1, -1, -1):
        m = re.match(r'^(?:@\[.*\]\s*)?(?:private |protected |noncomputable )*(theorem|def|instance|abbrev|inductive|structure|example|lemma)\s*([^\s:({\[]*)', ls[i])
        if m:
            return (m.group(2) or '%s at %s:%d' % (m.group(1), os.path.basename(path), i + 1)) if m.group(1) != 'example' else \
                'example at %s:%d' % (path.split('/Verif/')[-1], i + 1)
    return '?'

def build(scratch):
    """Build; stop a while after the first error."""
    p = subprocess.Popen(['lake', 'build'], cwd=scratch, stdout=subprocess.PIPE, stderr=subprocess.STDOUT, text=True, start_new_session=True)
    out, first = [], []
    def read():
        for l in p.stdout:
            out.append(l)
            if l.startswith('error: Verif/') and not first:
                first.append(time.time())
    t = threading.Thread(target=read)
    t.start()
    start = time.time()
    while p.poll() is None:
        time.sleep(1)
        if (first and time.time() - first[0] > 20) or time.time() - start > 3600:
            os.killpg(p.pid, signal.SIGKILL)
    t.join(10)
    return ''.join(out)

def main():
    scratch, mutants, log = sys.argv[1:4]
    only = set(sys.argv[4:])
    deps = {}
    for l in open(os.path.join(os.path.dirname(scratch), 'deps.tsv')):
        n, ds = l.rstrip('\n').split('\t')
        deps[n] = set(ds.split())
    done = set()
    if os.path.exists(log):
        done = {json.loads(l)['id'] for l in open(log) if l.strip()}
    for m in json.load(open(mutants)):
        if (only and m['id'] not in only) or (not only and m['id'] in done):
            continue
        subprocess.run('rm -rf %s && cp -a %s.orig %s' % (scratch, scratch, scratch), shell=True, check=True)
        path = os.path.join(scratch, 'Verif', m['file'])
        src = open(path).read()
        if src.count(m['old']) != 1:
            print(m['id'], 'old text occurs', src.count(m['old']), 'times'); continue
        open(path, 'w').write(src.replace(m['old'], m['new']))
        t = time.time()
        try:
            out = build(scratch)
        except subprocess.TimeoutExpired as e:
            out = 'TIMEOUT'
        failed = []
        for f, ln in re.findall(r'^error: (Verif/[^:]+\.lean):(\d+):\d+', out, re.M):
            d = decl_at(os.path.join(scratch, f), int(ln))
            if d not in failed:
                failed.append(d)
        props = sorted(n.split('.')[-1] for n, ds in deps.items()
                       if re.match(r'C\d+_', n.split('.')[-1]) and any(x == d or x.endswith('.' + d) for x in ds for d in failed))
        rec = {'id': m['id'], 'definition': m['def'], 'file': 'lean/Verif/' + m['file'], 'edit': {'old': m['old'], 'new': m['new']},
               'breaks': m['breaks'], 'failed': failed, 'properties_lost': props, 'outcome': 'caught' if failed else 'survived' if 'rror' not in out else 'build error',
               'seconds': round(time.time() - t), 'tightened': m.get('tightened', [])}
        with open(log, 'a') as f:
            f.write(json.dumps(rec) + '\n')
        print(m['id'], rec['outcome'], failed[:4], props[:6], rec['seconds'], flush=True)
        if rec['outcome'] == 'build error':
            print(out[-1500:])

main()
