"""Apply seeded bugs to a scratch copy of the Lean project and record what fails.

usage: mutate.py BATCH.json [LOG]
BATCH.json: list of {"file", "definition", "old", "new", "claim", "edit"}; every edit is
applied to a fresh copy.  One JSON line per edit is appended to LOG.
"""
import json, re, subprocess, sys, os, shutil

SRC = '/verif/lean'
DST = '/tmp/mut/lean'
PRI = '/tmp/mut/pristine'


def sh(cmd, **kw):
    return subprocess.run(cmd, shell=True, text=True, capture_output=True, **kw)


def prepare():
    os.makedirs('/tmp/mut', exist_ok=True)
    sh(f'rm -rf {DST} && cp -a {SRC} {DST}')
    r = sh('lake build', cwd=DST)
    assert r.returncode == 0, r.stdout[-2000:]
    sh(f'rm -rf {PRI} && cp -a {DST} {PRI}')


def decl_at(path, line):
    lines = open(path).read().split('\n')
    for i in range(min(line, len(lines)) - 1, -1, -1):
        m = re.match(r'(?:@\[[^\]]*\]\s*)?(?:noncomputable |private |protected )*'
                     r'(theorem|lemma|def|example|structure|instance|abbrev|inductive)\b\s*(\S+)?', lines[i])
        if m:
            name = m.group(2) if m.group(1) != 'example' else 'example@%d' % (i + 1)
            return '%s:%s' % (os.path.relpath(path, DST)[6:-5], name)
    return os.path.relpath(path, DST)


def imports():
    deps = {}
    for root, _, fs in os.walk(DST + '/Verif'):
        for f in fs:
            if f.endswith('.lean'):
                p = os.path.join(root, f)
                mod = os.path.relpath(p, DST)[:-5].replace('/', '.')
                deps[mod] = re.findall(r'^import (Verif\.\S+)', open(p).read(), re.M)
    return deps


def blocked(failed):
    deps = imports()
    bad = set(failed)
    while True:
        new = {m for m, d in deps.items() if m not in bad and any(x in bad for x in d)}
        if not new:
            break
        bad |= new
    out = []
    for m in sorted(bad - set(failed)):
        src = open(DST + '/' + m.replace('.', '/') + '.lean').read()
        out += re.findall(r'^theorem (C\d+\w*)', src, re.M)
    return out


def run(mu):
    sh(f'rm -rf {DST} && cp -a {PRI} {DST}')
    edits = mu.get('edits') or [{'file': mu['file'], 'old': mu['old'], 'new': mu['new']}]
    for e in edits:
        p = DST + '/Verif/' + e['file']
        s = open(p).read()
        if s.count(e['old']) < 1:
            return {'definition': mu['definition'], 'edit': mu['edit'], 'error': 'pattern not found'}
        open(p, 'w').write(s.replace(e['old'], e['new'], 1))
    first = None
    ids = re.findall(r'C\d+', mu['claim'].split(':')[0])
    for _ in range(8):
        r = sh('lake build', cwd=DST)
        errs = re.findall(r'^error: (Verif/\S+?\.lean):(\d+):\d+', r.stdout, re.M)
        failed = []
        for f, l in errs:
            d = decl_at(DST + '/' + f, int(l))
            if d not in failed:
                failed.append(d)
        if first is None:
            first = failed
            mods = sorted({f[:-5].replace('/', '.') for f, _ in errs})
            block = blocked(mods)
            survived = r.returncode == 0
        direct = [d for d in failed if any(d.split(':')[1].startswith(i + '_') for i in ids)]
        if direct or not failed:
            break
        # assume the lemmas that broke, to see whether the property theorems notice by themselves
        todo = [d for d in failed if ':' in d]
        if not [d for d in todo if assume(d)]:
            break
    return {'definition': mu['definition'], 'edit': mu['edit'], 'claim': mu['claim'],
            'failed': first, 'not_rebuilt_because_an_import_failed': block,
            'property_theorems_failing_when_the_broken_lemmas_are_assumed':
                [d for d in failed if d not in first and re.search(r':C\d\d', d)],
            'survived': survived, 'direct': bool(direct), 'tightened': []}


def assume(d):
    mod, name = d.split(':')
    p = DST + '/Verif/' + mod + '.lean'
    s = open(p).read()
    if name.startswith('example@'):
        lines = s.split('\n')
        start = sum(len(x) + 1 for x in lines[:int(name[8:]) - 1])
        hit = re.compile('example').search(s, start)
    else:
        hit = re.search(r'^(?:@\[[^\]]*\]\s*)?(?:private )?(?:theorem|lemma) ' + re.escape(name) + r'(?=[\s:({\[])', s, re.M)
    if not hit:
        return False
    nxt = re.search(r'^(?:/--|@\[|theorem|lemma|set_option|def|noncomputable|example|end|section|namespace|variable|instance|abbrev|/-!|omit|structure|private|open)', s[hit.end():], re.M)
    end = hit.end() + (nxt.start() if nxt else len(s))
    if name.startswith('example@'):
        open(p, 'w').write(s[:hit.start()] + 'example : True := trivial\n\n' + s[end:])
        return True
    i = s.find(':= by\n', hit.start())
    if i < 0 or i > end:
        return False
    open(p, 'w').write(s[:i] + ':= by\n  sorry\n\n' + s[end:])
    return True


if __name__ == '__main__':
    prepare()
    log = sys.argv[2] if len(sys.argv) > 2 else '/tmp/mut/log.jsonl'
    for mu in json.load(open(sys.argv[1])):
        out = run(mu)
        with open(log, 'a') as f:
            f.write(json.dumps(out, ensure_ascii=False) + '\n')
        print(mu['definition'], '|', mu['edit'], '|', 'SURVIVED' if out.get('survived') else out.get('error') or (out['direct'], out['failed'], out['property_theorems_failing_when_the_broken_lemmas_are_assumed']), flush=True)
