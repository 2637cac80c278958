#!/usr/bin/env python3
"""Generate lean/Verif/Spec/KeyWords.lean and the sweep lean/Verif/Proof/AlikeSweep.lean
(one lemma per validator function) from the model files."""
import re,sys
M='/verif/lean/Verif/Model/'
def code(f):
    s=open(M+f).read()
    s=re.sub(r'/-.*?-/','',s,flags=re.S)
    s=re.sub(r'--[^\n]*','',s)
    return s
def words(*fs):
    w=[]
    for f in fs:
        s=code(f)
        for l in re.findall(r'\[\s*("[^\]]*?")\s*\]',s,flags=re.S):
            w+=re.findall(r'"([^"]*)"',l)
        w+=re.findall(r'S "([^"]*)"',s)
    return w
def types(name):
    s=code('Words.lean')
    m=re.search(r'def '+name+r' : List String := \[(.*?)\]',s,flags=re.S)
    return re.findall(r'"([^"]*)"',m.group(1))
shared=words('Validator.lean','Converter.lean','Basic.lean')
L={'sqlite':sorted(set(shared+words('Sqlite.lean'))),
   'postgres':sorted(set(shared+words('Postgres.lean')+types('dataTypePostgres'))),
   'mysql':sorted(set(shared+words('Mysql.lean')+types('dataTypeMysql')))}
for k in L: L[k]=[w for w in L[k] if w not in ('<EOF>',' ','X','VARBIT ') ]
def fmt(ws):
    out=[];line='  '
    for k,w in enumerate(ws):
        s='"'+w+'"'+(',' if k<len(ws)-1 else ']')
        if len(line)+len(s)>95: out.append(line.rstrip()); line='  '
        line+=s+' '
    out.append(line.rstrip())
    return '\n'.join(out)
o='''import Verif.Model.Basic
/-
The words that have a meaning of their own in the syntax of each dialect: key words,
punctuation, type names, words of literals and of options, and the object kinds after CREATE.
Any other word can only be a name, or stand in a skipped part of the text.
-/

namespace DDL.Spec

'''
for k,t in [('sqlite','SQLite'),('postgres','PostgreSQL'),('mysql','MySQL')]:
    o+=f'/-- Words with a meaning in {t}. -/\ndef {k}Words : List String := [\n{fmt(L[k])}\n\n'
o+='''/-- Words with a meaning in the dialect; unknown dialects are read as SQLite. -/
def grammarWords (d : Rdbms) : List String :=
  match d with
  | .postgres => postgresWords
  | .mysql => mysqlWords
  | _ => sqliteWords

end DDL.Spec
'''
open('/verif/lean/Verif/Spec/KeyWords.lean','w').write(o)

# ---- sweep
def defs(f):
    s=code(f)
    out=[]
    for m in re.finditer(r'^def (\w+)((?: \([^)]*\))*) : (.*?)(?= :=|\n)',s,flags=re.M):
        name,b,ty=m.group(1),m.group(2),m.group(3).strip()
        if ty.startswith('Prog Unit') or ty.startswith('Nat → Prog Unit'):
            out.append((name,b,ty.startswith('Nat')))
    return out
def args(b):
    a=[]
    for x in re.findall(r'\(([^:)]*):',b): a+=x.split()
    return ' '.join(a)
o='''import Verif.Proof.Alike
/-
Generated by tools/gen_alike.py: every validator function looks at the tokens only through the
tests of `AlikeV`, so it acts alike on alike tokens.
-/

namespace DDL
open V Spec

'''
skip={'next','set','validateToken','skipToken','validateName','validateLiteralValue','validatePositiveInteger','validateCreateOther','createOtherLoop','columnConstraintsAux','validateStringValue'}
for ns,f,d in [('V','Validator.lean','d'),('Sqlite','Sqlite.lean','.sqlite'),('Postgres','Postgres.lean','.postgres'),('Mysql','Mysql.lean','.mysql')]:
    o+=f'namespace {ns}\nopen DDL V\n\n'
    for name,b,rec in defs(f):
        if name in skip: continue
        av='d' if ns=='V' else '('+d+')'
        bb=b.replace(' (d : Rdbms)','').replace(' (isNum : Str → Bool)','')
        pre='{isNum : Str → Bool} {T : Str → Str → Prop}' + (' {d : Rdbms}' if ns=='V' else '')
        a=args(b)
        call=(name+' '+a).strip()
        if rec:
            o+=f'''theorem {name}_alike {pre} (hT : AlikeV {av} isNum T){bb} (n : Nat) :
    PSim T ({call} n) ({call} n) := by
  induction n with
  | zero => exact .timeout
  | succ n ih => unfold {name}; alike_all
'''
        else:
            o+=f'''theorem {name}_alike {pre} (hT : AlikeV {av} isNum T){bb} :
    PSim T ({call}) ({call}) := by
  unfold {name}; alike_all
'''
            if name=='validateColumnConstraints':
                unf={'Sqlite':'h','Postgres':'by unfold constraintKey; rw [hT.kws (by decide +kernel) ht, h]',
                     'Mysql':'by\n    unfold constraintKey\n    rw [hT.kws (ks := ["NOT"]) (by decide +kernel) ht, hT.kws (ks := ["PRIMARY", "KEY"]) (by decide +kernel) ht,\n      hT.kws (ks := ["GENERATED", "AS"]) (by decide +kernel) ht, h]'}[ns]
                o+=f'''  exact PSim.columnConstraintsAux hT (by decide +kernel) (fun t t' ht h => {unf})
    (fun n => validateColumnConstraint_alike hT n) n []
'''
        o+=f'macro_rules | `(tactic| alike_lem) => `(tactic| with_reducible apply {name}_alike)\n\n'
    o+=f'end {ns}\n\n'
o+='end DDL\n'
open('/verif/lean/Verif/Proof/AlikeSweep.lean','w').write(o)
