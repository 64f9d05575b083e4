"""Runs the wrong programs of seeded/mutants.json against the proofs, in a scratch copy.

usage: mutate.py ID...   (each ID an entry of seeded/mutants.json not yet in seeded/LOG.jsonl)

For every mutant: copy lean/ to a scratch directory, replace text in one model file, build.  A declaration whose proof breaks is
recorded and its proof replaced by sorry (only in the scratch copy) so that the modules after it are still tried.  At the end the
claim theorems that broke themselves or rest on a broken lemma are listed.  Results go to /tmp/mut/<ID>.json.
"""
import json, os, re, shutil, subprocess, sys
V = '/verif'; S = '/tmp/mut'

def decls(lines):
    """(first line, last line exclusive, name) of the theorems and examples, 0-based"""
    starts = [i for i, l in enumerate(lines) if re.match(r'^(@\[|private |theorem|lemma|example|def|noncomputable|instance|structure|inductive|abbrev|end\b|namespace|section|variable|open\b|set_option|attribute|/--|/-!|universe|omit|include)', l)]
    out = []
    for a, b in zip(starts, starts[1:] + [len(lines)]):
        m = re.match(r'^(?:@\[[^\]]*\]\s*)?(?:private |protected )?(theorem|lemma|example)\s*([^\s:({\[]*)', lines[a])
        if m: out.append((a, b, m.group(2) or 'example@%d' % (a + 1)))
    return out

def stub(text):
    """replace the proof of a theorem text by sorry"""
    if re.match(r'example\s*:=', text): return '\n\n'    # a case without a statement of its own
    d = 0; i = 0
    while i < len(text):
        c = text[i]
        if c == "'" and text[i + 2:i + 3] == "'": i += 3; continue    # a character literal
        if c == '"':    # a string literal
            i += 1
            while text[i] != '"': i += 2 if text[i] == '\\' else 1
            i += 1; continue
        if c in '([{⟨': d += 1
        elif c in ')]}⟩': d -= 1
        elif d == 0 and text.startswith(':=', i) and not re.search(r'\n\s*let [^\n]*$', text[:i]): return text[:i] + ':= sorry\n\n'
        elif d == 0 and text.startswith('\n  |', i): return text[:i] + ' := sorry\n\n'
        i += 1
    raise Exception('no proof found: ' + text[:200])

def run(mid, mut):
    w = S + '/' + mid
    shutil.rmtree(w, ignore_errors=True)
    shutil.copytree(S + '/base' if os.path.isdir(S + '/base') else V + '/lean', w, symlinks=True)
    for ed in mut['edits']:
        f = w + '/Verif/' + ed['file']; s = open(f).read()
        assert s.count(ed['old']) == ed.get('count', 1), (mid, ed['old'], s.count(ed['old']))
        open(f, 'w').write(s.replace(ed['old'], ed['new']))
    broken = []; log = []
    for rnd in range(40):
        r = subprocess.run(['nice', 'lake', 'build'], cwd=w, capture_output=True, text=True)
        o = r.stdout + r.stderr
        errs = set((a, int(b)) for a, b in re.findall(r'error: (Verif/\S+?\.lean):(\d+):\d+', o))
        if r.returncode == 0: break
        if not errs: log.append(o[-1500:]); break
        todo = {}
        for f, ln in errs: todo.setdefault(f, set()).add(ln - 1)
        for f, lns in todo.items():
            lines = open(w + '/' + f).read().split('\n')
            ds = decls(lines); hit = []
            for ln in lns:
                h = [d for d in ds if d[0] <= ln < d[1]]
                if h: hit.append(h[0])
                else: log.append('%s:%d outside a theorem' % (f, ln + 1))
            if not hit: broken.append((f, 'module')); continue
            for a, b, n in sorted(set(hit), reverse=True):
                broken.append((f, n))
                t = '\n'.join(lines[a:b])
                lines[a:b] = stub(t).split('\n')[:-1] if True else []
            open(w + '/' + f, 'w').write('\n'.join(lines))
        if all(n == 'module' for f, n in broken[-len(errs):]): break
    # which claims rest on a broken proof
    claims = []
    for f in sorted(os.listdir(w + '/Verif/Props')):
        ns = []
        for l in open(w + '/Verif/Props/' + f):
            m = re.match(r'theorem (C\d+_\S+)', l)
            if m: ns.append(m.group(1))
        claims.append((f[:-5], ns))
    dead, alive, unbuilt = [], [], []
    if r.returncode == 0: claims = [(None, [n for _, ns in claims for n in ns])]    # everything was built: one file for all
    for mod, ns in claims:
        src = 'import Verif%s\nopen Meshless\n' % ('.Props.' + mod if mod else '') + ''.join('#print axioms %s\n' % n for n in ns)
        open(w + '/Chk.lean', 'w').write(src)
        r = subprocess.run(['nice', 'lake', 'env', 'lean', 'Chk.lean'], cwd=w, capture_output=True, text=True)
        o = r.stdout + r.stderr
        for n in ns:
            m = re.search(r"'(?:\w+\.)*%s' (depends on axioms: \[([^\]]*)\]|does not depend)" % re.escape(n), o)
            if not m: unbuilt.append(n)
            elif m.group(2) and 'sorryAx' in m.group(2): dead.append(n)
            else: alive.append(n)
    res = dict(id=mid, broken=[n + ' (' + f[6:] + ')' for f, n in broken], dead=dead, alive=alive, unbuilt=unbuilt, log=log, rounds=rnd)
    json.dump(res, open(S + '/%s.json' % mid, 'w'), indent=1)
    shutil.rmtree(w, ignore_errors=True)
    print(mid, 'rounds', rnd, 'broken', len(broken), 'dead', len(dead), 'alive', len(alive), 'unbuilt', len(unbuilt), flush=True)

if __name__ == '__main__':
    M = {m['id']: m for m in json.load(open(V + '/seeded/mutants.json'))}
    for i in sys.argv[1:]:
        try: run(i, M[i])
        except Exception as e: print(i, 'FAILED', repr(e)[:500], flush=True)
