#!/usr/bin/env python3
"""Mutation test of C53: apply each edit of a list to a scratch copy of the Go sources, write the syntax trees
again with gen_go.py, run them on the texts of tools/corpus.txt, and rebuild the proof that they agree with the model.

usage: mutate_go.py MUTANTS.json OUT.jsonl SCRATCH SOURCE

MUTANTS.json  list of {"id", "definition", "file" (in /repo), "old", "new", "edit", "claim", optional "nth"}
OUT.jsonl     one line per mutant is appended; mutants whose id is already there are skipped
SOURCE        a built copy of the Lean project
"""
import json, os, re, shutil, subprocess, sys

muts, out, scratch, SRC = sys.argv[1:5]
HERE = os.path.dirname(os.path.abspath(__file__))
CORPUS = [l.split('\t', 1) for l in open(os.path.join(HERE, 'corpus.txt')).read().split('\n') if '\t' in l]
DECL = re.compile(r'^(?:@\[[^\]]*\]\s*)?(?:private |protected |noncomputable )*'
                  r'(theorem|lemma|def|instance|example|inductive|structure|abbrev|macro|syntax)\b\s*(\S*)')

def results():
    """Outcome of the source on the corpus."""
    q = lambda s: json.dumps(s.replace('\\n', '\n').replace('\\t', '\t').replace('\\r', '\r'), ensure_ascii=False)
    body = ['import Verif.Go.Semantics', 'open DDL DDL.Src', 'def texts : List (Rdbms × String) := [',
            ',\n'.join(f'(.{d}, {q(s)})' for d, s in CORPUS), ']',
            'partial def pv : Val → String', '  | .nil => "nil"', '  | .bool b => toString b', '  | .int i => toString i',
            '  | .str s => "\\"" ++ String.ofList s ++ "\\""', '  | .num s => "#" ++ String.ofList s',
            '  | .err l n => s!"E{l}:" ++ String.ofList n',
            '  | .strs l => "s" ++ toString (l.map String.ofList)', '  | .slice l => "[" ++ " ".intercalate (l.map pv) ++ "]"',
            '  | .tuple l => "(" ++ " ".intercalate (l.map pv) ++ ")"', '  | .obj _ fs => "{" ++ " ".intercalate (fs.map fun x => pv x.2) ++ "}"',
            '  | _ => "?"',
            'def pr : Ret → String', '  | .ok v _ _ => pv v', '  | .panic => "panic"', '  | .stuck => "stuck"', '  | .timeout => "timeout"',
            '#eval show IO Unit from do', '  for (d, s) in texts do',
            '    IO.println ("@@" ++ (pr (env simpleNum 1500 .dp_Parse [.str s.toList, .rdbms d] [])).replace "\\n" "~" ++ " ## " ++ '
            '(pr (env simpleNum 1500 .dp_ParseForce [.str s.toList] [])).replace "\\n" "~")']
    f = os.path.join(scratch, 'corpus_eval.lean')
    open(f, 'w').write('\n'.join(body) + '\n')
    r = subprocess.run(['lake', 'env', 'lean', f], cwd=scratch, capture_output=True, text=True, timeout=1800)
    ls = [l for l in r.stdout.split('\n') if l.startswith('@@')]
    assert len(ls) == len(CORPUS), (len(ls), r.stdout[-500:] + r.stderr[-500:])
    return ls

def owner(path, line):
    ls = open(os.path.join(scratch, path)).read().split('\n')
    for i in range(min(line, len(ls)) - 1, -1, -1):
        m = DECL.match(ls[i])
        if m:
            return m.group(2) if m.group(1) != 'example' else f'example@{path}:{i+1}'
    return f'{path}:{line}'

def reset():
    shutil.rmtree(scratch, ignore_errors=True)
    subprocess.run(['cp', '-a', SRC, scratch], check=True)

done = {json.loads(l)['id'] for l in open(out)} if os.path.exists(out) else set()
reset()
base = results()
for m in json.load(open(muts)):
    if m['id'] in done:
        continue
    reset()
    repo = scratch + '_repo'
    shutil.rmtree(repo, ignore_errors=True)
    shutil.copytree('/repo', repo)
    p = os.path.join(repo, m['file'])
    s = open(p).read()
    nth = m.get('nth', 0)
    parts = s.split(m['old'])
    if len(parts) < 2 or ('nth' not in m and len(parts) != 2):
        print(m['id'], 'old text found', len(parts) - 1, 'times', flush=True); continue
    s = m['old'].join(parts[:nth + 1]) + m['new'] + m['old'].join(parts[nth + 1:])
    open(p, 'w').write(s)
    r = subprocess.run([sys.executable, os.path.join(HERE, 'gen_go.py'), repo, scratch + '/Verif/Go'], capture_output=True, text=True)
    if r.returncode:
        print(m['id'], 'gen_go', r.stderr[-300:], flush=True); continue
    r = subprocess.run(['lake', 'build', 'Verif.Go.Semantics'], cwd=scratch, capture_output=True, text=True)
    if r.returncode:
        print(m['id'], 'does not compile', (r.stdout + r.stderr)[-800:], flush=True); continue
    got = results()
    diff = [CORPUS[i] for i in range(len(CORPUS)) if got[i] != base[i]]
    try:
        r = subprocess.run(['lake', 'build', 'Verif.Props.Source'], cwd=scratch, capture_output=True, text=True, timeout=1500)
        txt = r.stdout + r.stderr
    except subprocess.TimeoutExpired:
        txt = 'error: timeout'
    failed = []
    for f, l in re.findall(r'error: (\S+?\.lean):(\d+):', txt):
        o = owner(f, int(l))
        if o not in failed:
            failed.append(o)
    names = [f for f in failed if not f.startswith('example@')]
    only = {'go_ParseSQLite': 'C53_sqlite', 'go_ParsePostgreSQL': 'C53_postgres', 'go_ParseMySQL': 'C53_mysql',
            'go_ParseForce': 'C53_force', 'pf_body': 'C53_force', 'pf_ok': 'C53_force', 'pf_err': 'C53_force', 'pf_hang': 'C53_force'}
    lost = sorted({only[n] for n in names}) if all(n in only for n in names) else \
        ['C53_force', 'C53_mysql', 'C53_parse', 'C53_postgres', 'C53_sqlite']
    rec = {'id': m['id'], 'definition': m['definition'], 'edit': m['edit'], 'claim': m['claim'], 'differs_on': len(diff),
           'witness': min(diff, key=lambda x: len(x[1])) if diff else None, 'failed': failed or (['timeout'] if 'error' in txt else []),
           'property_theorems_lost': lost if 'error' in txt else [], 'survived': 'error' not in txt}
    with open(out, 'a') as fh:
        fh.write(json.dumps(rec, ensure_ascii=False) + '\n')
    print(m['id'], 'SURVIVED' if rec['survived'] else f'killed: {failed[:6]}', f'; differs on {len(diff)} texts', flush=True)
