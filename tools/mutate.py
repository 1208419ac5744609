#!/usr/bin/env python3
"""Edit the model in a scratch copy and list the property theorems that no longer check.

usage: mutate.py SCRATCH SPEC.jsonl OUT.jsonl

Every line of SPEC is {"file","old","new","definition","edit","claim"}; `old` must occur exactly once in
lean/Verif/<file>. In the scratch copy, every declaration whose proof no longer checks is replaced by
`sorry` (examples are dropped) until the project builds; the theorems of MANIFEST.json that then depend
on `sorry` are the ones that failed."""
import json, os, re, shutil, subprocess, sys

ROOT = os.path.dirname(os.path.dirname(os.path.abspath(__file__)))
KEY = re.compile(r'^(theorem|example|def|instance|inductive|structure|abbrev|private|protected|@\[|/--|/-!|end|'
                 r'namespace|variable|open|section|set_option|#|import|mutual|local|attribute|deriving)')
DECL = re.compile(r'^(?:@\[[^\]]*\]\s*)?(?:private |protected |local )?(theorem|example|instance|def)\b')

def sync(scratch):
    os.makedirs(scratch, exist_ok=True)
    subprocess.run(['rsync', '-a', '--delete', '--exclude', '.lake', ROOT + '/lean/', scratch + '/'], check=True) \
        if shutil.which('rsync') else copy(scratch)
    if not os.path.exists(scratch + '/.lake'):
        shutil.copytree(ROOT + '/lean/.lake', scratch + '/.lake', symlinks=True)

def copy(scratch):
    shutil.rmtree(scratch + '/Verif', ignore_errors=True)
    for n in os.listdir(ROOT + '/lean'):
        if n == '.lake':
            continue
        s, d = ROOT + '/lean/' + n, scratch + '/' + n
        if os.path.isdir(s):
            shutil.copytree(s, d)
        else:
            shutil.copy2(s, d)

def build(scratch):
    p = subprocess.run(['lake', 'build'], cwd=scratch, capture_output=True, text=True)
    return p.returncode, p.stdout + p.stderr

def statement_end(text):
    depth = 0
    i = 0
    while i < len(text):
        ch = text[i]
        if ch in '([{⟨':
            depth += 1
        elif ch in ')]}⟩':
            depth -= 1
        elif depth == 0:
            if text.startswith(':=', i) and not text[text.rfind('\n', 0, i) + 1:i].lstrip().startswith('let '):
                return i
            if text.startswith(' where\n', i):
                return i
            if text.startswith('\n  | ', i) and ' with' not in text[text.rfind('\n', 0, i) + 1:i] \
                    and not text[text.rfind('\n', 0, i) + 1:i].startswith('  | '):
                return i
        i += 1
    return None

def sorry_out(path, lines):
    """Replace the declarations around these line numbers; returns their names, or None."""
    src = open(path).read().split('\n')
    names = []
    spans = set()
    for ln in lines:
        i = min(ln, len(src)) - 1
        while i >= 0 and not DECL.match(src[i]):
            i -= 1
        if i < 0:
            return None
        j = i + 1
        while j < len(src) and not KEY.match(src[j]):
            j += 1
        spans.add((i, j))
    for i, j in sorted(spans, reverse=True):
        kind = DECL.match(src[i]).group(1)
        text = '\n'.join(src[i:j])
        if kind == 'example':
            k = i
            new = ['']
            names.append('example')
            # drop the doc comment, which must precede a declaration
            b = i - 1
            if b >= 0 and src[b].rstrip().endswith('-/'):
                while not src[b].startswith('/-'):
                    b -= 1
                if src[b].startswith('/--'):
                    k = b
            src[k:j] = new
        elif kind == 'theorem':
            e = statement_end(text)
            if e is None or ':= sorry' in text:
                return None
            names.append(re.match(r'(?:@\[[^\]]*\]\s*)?(?:private |protected )?theorem\s+(\S+)', text).group(1))
            src[i:j] = (text[:e].rstrip() + ' := sorry').split('\n') + ['']
        else:
            return None
    open(path, 'w').write('\n'.join(src))
    return names

def run(scratch, m):
    sync(scratch)
    f = scratch + '/Verif/' + m['file']
    s = open(f).read()
    if s.count(m['old']) != 1:
        return dict(m, error='old text occurs %d times' % s.count(m['old']))
    open(f, 'w').write(s.replace(m['old'], m['new']))
    broken = []
    for _ in range(60):
        rc, out = build(scratch)
        errs = {}
        for mm in re.finditer(r'^error: (?:\./)?(\S+?\.lean):(\d+):\d+: ', out, re.M):
            errs.setdefault(mm.group(1), set()).add(int(mm.group(2)))
        if rc == 0:
            break
        if not errs:
            return dict(m, error='build failed: ' + out[-600:])
        for path, lines in errs.items():
            names = sorry_out(scratch + '/' + path, sorted(lines))
            if names is None:
                msg = [l for l in out.split('\n') if l.startswith('error: ' + path)]
                return dict(m, error='not a proof: ' + '; '.join(msg[:3]))
            broken += names
    else:
        return dict(m, error='too many rounds')
    subprocess.run(['touch', scratch + '/Verif/Audit.lean'])
    p = subprocess.run(['lake', 'env', 'lean', 'Verif/Audit.lean'], cwd=scratch, capture_output=True, text=True)
    failed = []
    for mm in re.finditer(r"'Sas\.Props\.(\S+)' depends on axioms: \[([^\]]*)\]", p.stdout):
        if 'sorryAx' in mm.group(2):
            failed.append(mm.group(1))
    return dict(m, broken=broken, failed=failed)

def main():
    scratch, spec, out = sys.argv[1:4]
    for line in open(spec):
        if line.strip():
            r = run(scratch, json.loads(line))
            with open(out, 'a') as o:
                o.write(json.dumps(r, ensure_ascii=False) + '\n')

main()
