"""Apply each edit of a list to a scratch copy of the Lean project, rebuild, and report what fails.

usage: mutate.py edits.json results.jsonl scratch_dir [first [last]]
edits.json: [{"file", "old", "new", "definition", "edit", "claim"}], `old` must occur exactly once in `file`
(or give "nth": which occurrence to replace).
"""
import json, os, re, shutil, subprocess, sys

edits, out, scratch = sys.argv[1:4]
src = os.environ.get('BASE', '/verif/lean')
lo = int(sys.argv[4]) if len(sys.argv) > 4 else 0
hi = int(sys.argv[5]) if len(sys.argv) > 5 else 10**6

def sync():
    os.makedirs(scratch, exist_ok=True)
    subprocess.run(['rsync', '-a', '--delete', src + '/', scratch + '/'], check=True) if shutil.which('rsync') else \
        subprocess.run(f'rm -rf {scratch} && cp -a {src} {scratch}', shell=True, check=True)

def enclosing(lines, n):
    for i in range(n - 1, -1, -1):
        m = re.match(r'^(?:private |protected |noncomputable |@\[[^\]]*\] *)*(theorem|lemma|def|instance|example|structure)\s*([^\s:({\[]*)', lines[i])
        if m:
            return m.group(2) or (m.group(1) + '@%d' % (i + 1))
    return '?'

done = set()
if os.path.exists(out):
    done = {json.loads(l)['n'] for l in open(out)}
for n, e in enumerate(json.load(open(edits))):
    if n in done or n < lo or n >= hi:
        continue
    sync()
    p = os.path.join(scratch, 'Verif', e['file'])
    orig = open(p).read()
    k = orig.count(e['old'])
    if 'nth' in e:
        parts = orig.split(e['old'])
        i = e['nth']
        new = e['old'].join(parts[:i + 1]) + e['new'] + e['old'].join(parts[i + 1:])
    else:
        if k != 1:
            print('EDIT', n, 'matches', k, 'times'); continue
        new = orig.replace(e['old'], e['new'])
    open(p, 'w').write(new)
    r = subprocess.run(['lake', 'build'], cwd=scratch, capture_output=True, text=True)
    txt = r.stdout + r.stderr
    failed = {}
    for m in re.finditer(r'error: (Verif/[\w/]+\.lean):(\d+):\d+', txt):
        lines = open(os.path.join(scratch, m.group(1))).read().split('\n')
        failed.setdefault(m.group(1), set()).add(enclosing(lines, int(m.group(2))))
    rec = dict(n=n, definition=e['definition'], edit=e['edit'], claim=e['claim'], built=r.returncode == 0,
               failed={k: sorted(v) for k, v in failed.items()})
    with open(out, 'a') as f:
        f.write(json.dumps(rec) + '\n')
    print(json.dumps(rec), flush=True)
