#!/usr/bin/env python3
"""Check the citations of the model: every definition under lean/Verif/Model has a doc comment, and the comment
cites lines of /repo that exist or says that the definition is not in the code."""
import glob, os, re, sys

REPO = '/repo'
MODEL = os.path.join(os.path.dirname(os.path.abspath(__file__)), '..', 'lean', 'Verif', 'Model')
CITE = re.compile(r'([\w/]+\.(?:go|y)):(\d+(?:-\d+)?(?:(?:, | and )\d+(?:-\d+)?)*)')

sources = {}
for root, _, names in os.walk(REPO):
    for n in names:
        if n.endswith('.go') or n.endswith('.y'):
            p = os.path.join(root, n)
            sources[os.path.relpath(p, REPO)] = open(p).read().count('\n') + 1
# the tools say main.go for the main file of asn1go
short = {'main.go': 'cmd/asn1go/main.go', 'dump.go': 'internal/utils/dump.go'}

bad = 0
def complain(f, line, what):
    global bad
    bad += 1
    print(f'{f}:{line}: {what}')

for path in sorted(glob.glob(os.path.join(MODEL, '*.lean'))):
    f = os.path.basename(path)
    text = open(path).read()
    for m in re.finditer(r'^(?:@\[[^\]]*\] ?)?(?:def|abbrev|structure|inductive) (\S+)', text, re.M):
        line = text.count('\n', 0, m.start()) + 1
        before = text[:m.start()].rstrip()
        if before.endswith('in') and before.rsplit('\n', 1)[-1].startswith('open'):
            before = before.rsplit('\n', 1)[0].rstrip()
        if not before.endswith('-/'):
            complain(f, line, f'{m[1]} has no comment')
            continue
        doc = before[before.rfind('/-'):]
        cites = CITE.findall(doc)
        if not cites and 'ot in the code' not in doc:
            complain(f, line, f'{m[1]} cites nothing')
        for name, ranges in cites:
            key = short.get(name, name)
            if key not in sources:
                complain(f, line, f'{m[1]} cites {name}, which is not there')
                continue
            for r in re.findall(r'\d+(?:-\d+)?', ranges):
                a, b = int(r.split('-')[0]), int(r.split('-')[-1])
                if not 1 <= a <= b <= sources[key]:
                    complain(f, line, f'{m[1]} cites {name}:{r}, out of range')
print('ok' if bad == 0 else f'{bad} problems')
sys.exit(bad != 0)
