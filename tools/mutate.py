#!/usr/bin/env python3
"""Mutation test: apply each edit of a list to a scratch copy of the Lean project, evaluate the
model on the texts of tools/corpus.txt, build the project, and report which texts are parsed
differently and which theorems stop compiling.

usage: mutate.py MUTANTS.json DEPS.txt OUT.jsonl [SCRATCH [SOURCE]]

MUTANTS.json  list of {"id", "definition", "file", "old", "new", "edit", "claim"}
DEPS.txt      one line per property theorem: name, tab, constants it depends on (lean names)
OUT.jsonl     one line per mutant is appended; mutants whose id is already there are skipped
SOURCE        a built copy of the project
"""
import json, os, re, subprocess, sys

muts, deps, out = sys.argv[1:4]
scratch = sys.argv[4] if len(sys.argv) > 4 else '/tmp/mut'
SRC = sys.argv[5] if len(sys.argv) > 5 else '/verif/lean'
HERE = os.path.dirname(os.path.abspath(__file__))
CORPUS = [l.split('\t', 1) for l in open(os.path.join(HERE, 'corpus.txt')).read().split('\n') if '\t' in l]

dep = {}
for line in open(deps):
    if '\t' in line:
        n, cs = line.rstrip('\n').split('\t')
        dep[n] = {c.split('._')[0] for c in cs.split()}

done = set()
if os.path.exists(out):
    done = {json.loads(l)['id'] for l in open(out)}

DECL = re.compile(r'^(?:@\[[^\]]*\]\s*)?(?:private |protected |noncomputable )*'
                  r'(theorem|lemma|def|instance|example|inductive|structure|abbrev|macro|syntax)\b\s*(\S*)')

def text(s):
    return s.replace('\\n', '\n').replace('\\t', '\t').replace('\\r', '\r')

def results(root):
    """Outcome of Parse (all texts) and ParseForce on the model in `root`."""
    def q(s):
        return json.dumps(text(s), ensure_ascii=False)
    body = ['import Verif.Model.Parse', 'open DDL', 'def texts : List (Rdbms × String) := [',
            ',\n'.join(f'(.{d}, {q(s)})' for d, s in CORPUS), ']',
            'def show1 (o : Outcome (List Table × Option VErr)) : String :=',
            '  ((toString (repr o)).replace "\\n" " ")',
            '#eval show IO Unit from do',
            '  for (d, s) in texts do',
            '    IO.println ("@@" ++ show1 (parseN simpleNum 4000 s.toList d) ++ " ## " ++ show1 (parseForceN simpleNum 4000 s.toList))']
    f = os.path.join(root, 'corpus_eval.lean')
    open(f, 'w').write('\n'.join(body) + '\n')
    r = subprocess.run(['lake', 'env', 'lean', f], cwd=root, capture_output=True, text=True, timeout=900)
    os.remove(f)
    ls = [l for l in r.stdout.split('\n') if l.startswith('@@')]
    assert len(ls) == len(CORPUS), r.stdout[:500] + r.stderr[:500]
    return ls

def owner(path, line):
    ls = open(os.path.join(scratch, path)).read().split('\n')
    for i in range(min(line, len(ls)) - 1, -1, -1):
        m = DECL.match(ls[i])
        if m:
            return m.group(2) if m.group(1) != 'example' else f'example@{path}:{i+1}'
    return f'{path}:{line}'

base = results(SRC)
for m in json.load(open(muts)):
    if m['id'] in done:
        continue
    subprocess.run(['rm', '-rf', scratch], check=True)
    subprocess.run(['cp', '-a', SRC, scratch], check=True)
    p = os.path.join(scratch, 'Verif', m['file'])
    s = open(p).read()
    k = s.count(m['old'])
    if k != m.get('count', 1):
        print(m['id'], 'old text found', k, 'times'); continue
    open(p, 'w').write(s.replace(m['old'], m['new']))
    r = subprocess.run(['lake', 'build', 'Verif.Model.Parse'], cwd=scratch, capture_output=True, text=True)
    if r.returncode:
        print(m['id'], 'does not compile', (r.stdout + r.stderr)[-1500:], flush=True); continue
    got = results(scratch)
    diff = [CORPUS[i] for i in range(len(CORPUS)) if got[i] != base[i]]
    try:
        r = subprocess.run(['lake', 'build'], cwd=scratch, capture_output=True, text=True, timeout=3000)
        txt = r.stdout + r.stderr
    except subprocess.TimeoutExpired as e:
        txt = 'error: timeout'; r = None
    failed = []
    for f, l in re.findall(r'error: (\S+?\.lean):(\d+):', txt):
        o = owner(f, int(l))
        if o not in failed:
            failed.append(o)
    names = [f for f in failed if not f.startswith('example@')]
    props = sorted(n for n, cs in dep.items()
                   if n in names or any(c == f or c.endswith('.' + f) for c in cs for f in names))
    rec = {'id': m['id'], 'definition': m['definition'], 'edit': m['edit'], 'claim': m['claim'],
           'differs_on': len(diff), 'witness': min(diff, key=lambda x: len(x[1])) if diff else None,
           'failed': failed, 'property_theorems_lost': props, 'survived': not failed}
    with open(out, 'a') as fh:
        fh.write(json.dumps(rec, ensure_ascii=False) + '\n')
    print(m['id'], 'SURVIVED' if not failed else f'killed: {failed[:6]} -> {len(props)} property theorems',
          f'; differs on {len(diff)} texts', flush=True)
