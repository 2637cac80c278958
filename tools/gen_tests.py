#!/usr/bin/env python3
"""Transcribe the expectations of the repo's Go tests into lean/Verif/Tests.lean."""
import re, json, sys
T='/repo/test/'
files=[T+'lexer_test.go',T+'validator_sqlite_test.go',T+'validator_postgresql_test.go',T+'validator_mysql_test.go',
       T+'converter_sqlite_test.go',T+'converter_postgresql_test.go',T+'converter_mysql_test.go','/repo/ddlparse_test.go']
tok=re.compile(r'`(?P<raw>[^`]*)`|"(?P<str>(?:\\.|[^"\\])*)"|(?P<id>[A-Za-z_][A-Za-z_0-9.]*)|(?P<num>\d+)|(?P<com>//[^\n]*|/\*.*?\*/)|(?P<nl>\n)|(?P<op>:=|.)|(?P<ws>\s+)',re.S)
def lex(s):
    i=0; out=[]; line=1
    while i<len(s):
        m=re.compile(r'[ \t\r]+').match(s,i)
        if m: i=m.end(); continue
        m=tok.match(s,i)
        k=m.lastgroup
        if k=='raw': out.append(('s',m.group('raw'),line))
        elif k=='str': out.append(('s',json.loads('"'+m.group('str')+'"'),line))
        elif k=='id': out.append(('i',m.group('id'),line))
        elif k=='num': out.append(('n',int(m.group('num')),line))
        elif k=='com': pass
        elif k=='nl': pass
        else: out.append(('o',m.group(0),line))
        line+=m.group(0).count('\n')
        i=m.end()
    return out
def L(s):
    r='"'
    for c in s:
        if c=='\n': r+='\\n'
        elif c=='\t': r+='\\t'
        elif c=='\r': r+='\\r'
        elif c in '"\\': r+='\\'+c
        else: r+=c
    return r+'"'
def S(s): return '(S '+L(s)+')'
def B(b): return 'true' if b else 'false'
def lst(xs): return '['+', '.join(xs)+']'
def strs(xs): return lst([S(x) for x in (xs or [])])
def dv(v):
    if v is None: return '.nil'
    if isinstance(v,bool): return '(.bool '+B(v)+')'
    if isinstance(v,(int,float)): return '(.num '+S(repr(v) if isinstance(v,float) else str(v))+')'
    return '(.str '+S(v)+')'
def ref(r): return '⟨'+S(r['table_name'])+', '+('none' if r['column_names'] is None else 'some '+strs(r['column_names']))+'⟩'
def con(c): return '⟨'+', '.join([S(c['name']),B(c['is_primary_key']),B(c['is_unique']),B(c['is_not_null']),B(c['is_autoincrement']),dv(c['default']),S(c['check']),S(c['collate']),ref(c['references'])])+'⟩'
def col(c): d=c['data_type']; return '⟨'+S(c['name'])+', ⟨'+S(d['name'])+f", {d['digit_n']}, {d['digit_m']}⟩,\n      "+con(c['constraint'])+'⟩'
def tc(c):
    pk=lst(['⟨'+S(p['name'])+', '+strs(p['column_names'])+'⟩' for p in c['primary_key'] or []])
    uq=lst(['⟨'+S(p['name'])+', '+strs(p['column_names'])+'⟩' for p in c['unique'] or []])
    ck=lst(['⟨'+S(p['name'])+', '+S(p['expr'])+'⟩' for p in c['check'] or []])
    fk=lst(['⟨'+S(p['name'])+', '+strs(p['column_names'])+', '+ref(p['references'])+'⟩' for p in c['foreign_key'] or []])
    return '⟨'+', '.join([pk,uq,ck,fk])+'⟩'
def table(t): return '⟨'+S(t['schema'])+', '+S(t['name'])+', '+B(t['if_not_exists'])+', ['+',\n      '.join(col(c) for c in t['columns'])+'],\n    '+tc(t['constraints'])+'⟩'
dialects={'SQLite':'.sqlite','PostgreSQL':'.postgres','MySQL':'.mysql'}
out=["import Verif.Model.Parse","/-","The expectations of the repo's own Go tests, transcribed by tools/gen_tests.py and evaluated on","the model. These are tests of the model's fidelity, not proofs.","-/","namespace DDL.Tests","open DDL","",
"/-- Number of tokens, or the error. -/",
"def lexSize (d : Rdbms) (s : String) : Nat ⊕ (Nat × String) :=",
"  match Lex.lexN d 100000 s.toList with",
"  | .ok ts => .inl ts.length","  | .err e => .inr (e.line, String.ofList e.near)","  | _ => .inr (0, \"\")","",
"/-- Syntax check: `none` = accepted. -/",
"def val (d : Rdbms) (s : String) : Option (Nat × String) :=",
"  match Lex.lexN d 100000 s.toList with",
"  | .ok ts =>","    match validateN simpleNum d 100000 ts with","    | .ok _ => none","    | .err e => some (e.line, String.ofList e.near)","    | _ => some (0, \"\")",
"  | .err e => some (e.line, String.ofList e.near)","  | _ => some (0, \"\")","",
"/-- `Parse` returns these tables and no error. -/",
"def conv (d : Rdbms) (s : String) (ts : List Table) : Bool :=",
"  parseN simpleNum 100000 s.toList d == .ok (ts, none)",
"","/-- `ParseForce` returns these tables and no error. -/",
"def force (s : String) (ts : List Table) : Bool :=",
"  parseForceN simpleNum 100000 s.toList == .ok (ts, none)","",
"instance : BEq (Outcome (List Table × Option VErr)) := ⟨fun a b => decide (a = b)⟩",""]
i0=out.index("/-- `Parse` returns these tables and no error. -/")
inst=out.pop(-2); out.insert(i0,inst); out.insert(i0+1,"")
cnt=0
for f in files:
    ts=lex(open(f).read()); env={}; d=None; i=0
    name=f.replace('/repo/','')
    def expr(i):
        v=''
        while True:
            k,x,_=ts[i]
            if k=='s': v+=x
            elif k=='i' and x in env: v+=env[x]
            else: return None,i
            i+=1
            if ts[i][:2]==('o','+'): i+=1; continue
            return v,i
    while i<len(ts):
        k,x,ln=ts[i]
        if k=='i' and x=='NewTester': d=dialects[ts[i+2][1]]; i+=1; continue
        if k=='i' and i+1<len(ts) and ts[i+1][1] in(':=','=') and ts[i+2][0] in 'si':
            v,j=expr(i+2)
            if v is not None: env[x]=v; i=j; continue
        if k=='i' and x in('tr.LexOK','tr.LexNG','tr.ValidateOK','tr.ValidateNG','tr.ConvertOK'):
            a=env.get(ts[i+2][1]) if ts[i+2][0]=='i' else ts[i+2][1]
            if a is None: print('skip',name,ln,file=sys.stderr); i+=1; continue
            n=ts[i+4][1]; s=ts[i+6][1]
            out.append(f'-- {name}:{ln}')
            if x=='tr.LexOK': out.append(f'#guard lexSize {d} {L(a)} = .inl {n}')
            elif x=='tr.LexNG': out.append(f'#guard lexSize {d} {L(a)} = .inr ({n}, {L(s)})')
            elif x=='tr.ValidateOK': out.append(f'#guard val {d} {L(a)} = none')
            elif x=='tr.ValidateNG': out.append(f'#guard val {d} {L(a)} = some ({n}, {L(s)})')
            else: out.append(f'#guard conv {d} {L(a)} [\n  '+',\n  '.join(table(t) for t in json.loads(env[n]))+']')
            cnt+=1
        if k=='i' and x in('ParseSQLite','ParsePostgreSQL','ParseMySQL','ParseForce'):
            env['_call']=x; env['_ddl']=env['ddl']; env['_ln']=ln
        if k=='i' and x=='Parse' and ts[i+1][1]=='(':
            env['_call']='Parse'+ts[i+4][1]; env['_ddl']=env[ts[i+2][1]]
        if k=='i' and x=='resultCheck' and '_call' in env:
            c=env['_call']; out.append(f'-- {name}:{ln}')
            exp='[\n  '+',\n  '.join(table(t) for t in json.loads(env[ts[i+4][1]]))+']'
            if c=='ParseForce': out.append(f'#guard force {L(env["_ddl"])} {exp}')
            else: out.append(f'#guard conv {dialects[c[5:]]} {L(env["_ddl"])} {exp}')
            cnt+=1
        i+=1
out.append('\nend DDL.Tests')
print('\n'.join(out)); print(cnt,file=sys.stderr)
