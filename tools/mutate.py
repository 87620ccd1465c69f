"""Mutation testing of the theorems: python3 tools/mutate.py FILE...

Each FILE is a Python file that calls m(claim, file, definition, old, new, why, targets).  In a scratch
copy of lean/ the text `old` (which has to occur once in the definition) is replaced by `new` and the
targets are built.  One JSON line per attempt is appended to seeded/LOG.jsonl, except when the edit
survives: then a theorem has to be tightened first (name it in `tightened` and run again), or the edit
does not change the function (`equivalent=True`).
"""
import json, os, re, subprocess, sys

ROOT = '/verif'
SCRATCH = os.environ.get('MUT_SCRATCH', '/tmp/mut')
LOG = ROOT + '/seeded/LOG.jsonl'
DECL = re.compile(r'^(?:@\[[^\]]*\]\s*)?(?:private |protected |noncomputable )*(theorem|lemma|def|example|instance|abbrev)\b\s*(\S*)')

muts = []
def m(claim, file, definition, old, new, why, targets, tightened='', equivalent=False):
    muts.append(dict(claim=claim, file=file, definition=definition, old=old, new=new, why=why,
                     targets=targets.split(), tightened=tightened.split(), equivalent=equivalent))

def done():
    keys = set()
    if os.path.exists(LOG):
        for l in open(LOG):
            e = json.loads(l)
            keys.add((e['file'], e['edit']['from'], e['edit']['to'], e['claim']))
    return keys

def decl_at(path, line):
    name = None
    for i, l in enumerate(open(path), 1):
        if i > line: break
        k = DECL.match(l)
        if k: name = k.group(2) if k.group(1) != 'example' else 'example (line %d)' % i
    return name

def main():
    for f in sys.argv[1:]:
        exec(compile(open(f).read(), f, 'exec'), dict(m=m))
    seen = done()
    subprocess.run('rm -rf %s && cp -a %s/lean %s' % (SCRATCH, ROOT, SCRATCH), shell=True, check=True)
    for x in muts:
        key = (x['file'], x['old'], x['new'], x['claim'])
        if key in seen: continue
        path = SCRATCH + '/Verif/' + x['file'] + '.lean'
        src = open(path).read()
        # restrict to the definition
        k = re.search(r'^(?:def|structure|abbrev|inductive|theorem|instance)\s+' + re.escape(x['definition']) + r'(?=[\s:({\[])', src, re.M)
        if not k:
            print('NO DEFINITION', x['file'], x['definition']); continue
        rest = src[k.start():]
        e = re.search(r'\n\n(?:/--|def |structure |abbrev |inductive |theorem |instance |end |/-!|@\[|namespace )', rest)
        end = k.start() + (e.start() if e else len(rest))
        body = src[k.start():end]
        if body.count(x['old']) != 1:
            print('COUNT %d' % body.count(x['old']), x['file'], x['definition'], repr(x['old'])); continue
        open(path, 'w').write(src[:k.start()] + body.replace(x['old'], x['new']) + src[end:])
        r = subprocess.run(['lake', 'build'] + ['Verif.' + t for t in x['targets']], cwd=SCRATCH,
                           capture_output=True, text=True)
        out = r.stdout + r.stderr
        failed, bad = [], False
        for k in re.finditer(r'error: (Verif/\S+\.lean):(\d+):', out):
            if k.group(1) == 'Verif/' + x['file'] + '.lean': bad = True
            n = decl_at(SCRATCH + '/' + k.group(1), int(k.group(2)))
            n = '%s: %s' % (k.group(1)[6:-5], n)
            if n not in failed: failed.append(n)
        open(path, 'w').write(src)
        if bad:
            print('INVALID', x['file'], x['definition'], repr(x['new']), out[-1500:]); continue
        verdict = 'caught' if r.returncode else 'survived'
        print(verdict.upper(), x['claim'], x['file'], x['definition'], repr(x['old']), '->', repr(x['new']), failed[:6], flush=True)
        if verdict == 'caught' and not failed:
            print(out[-800:]); continue
        if verdict == 'survived' and not x['equivalent']:
            continue
        if verdict == 'caught' and x['equivalent']:
            print('  (was expected to be equivalent)')
        if verdict == 'survived':
            verdict = 'survived: the edited definition computes the same function'
        with open(LOG, 'a') as o:
            o.write(json.dumps(dict(definition=x['definition'], file=x['file'],
                edit={'from': x['old'], 'to': x['new']}, claim=x['claim'], why=x['why'],
                result=verdict, failed=failed, tightened=x['tightened']), ensure_ascii=False) + '\n')
main()
