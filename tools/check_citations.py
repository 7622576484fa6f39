"""List citations `file.py:lines` in the Lean sources whose first or last line in /repo is
missing, blank, or a comment, or for which no file exists."""
import glob, os, re
REPO = '/repo'
files = {}
for root, _, fs in os.walk(REPO):
    for f in fs:
        if f.endswith('.py'):
            files.setdefault(f, []).append(os.path.join(root, f))
total = 0
for f in sorted(glob.glob(os.path.join(os.path.dirname(__file__), '../lean/Verif/**/*.lean'), recursive=True)):
    text = open(f).read()
    for c in re.finditer(r'([\w/]+\.py):([0-9][0-9, \n-]*)', text):
        n = text[:c.start()].count('\n') + 1
        cand = [p for p in files.get(os.path.basename(c.group(1)), []) if p.endswith('/' + c.group(1))]
        here = '%s:%d %s' % (os.path.relpath(f), n, c.group(0).strip())
        if not cand:
            print('no file', here)
            continue
        for a, b in re.findall(r'(\d+)(?:-(\d+))?', c.group(2)):
            total += 1
            a, b = int(a), int(b or a)
            good = False
            for p in cand:
                lines = open(p, encoding='utf-8').read().split('\n')
                ok = lambda i: 0 < i <= len(lines) and lines[i - 1].strip() and not lines[i - 1].strip().startswith('#')
                good = good or (a <= b and ok(a) and ok(b))
            if not good:
                print('check', here, a, b)
print(total, 'line ranges')
