"""Writes the sweep of lean/Verif/Proof/Cost.lean (everything after its header) from Proof/Pick.lean."""
import re
src=open('lean/Verif/Proof/Pick.lean').read()
skip={'token','head','next','syntaxError','matchToken','matchTokenNext','skipToken','validateBracketsAux','isValidName','validateName',
 'validateLiteralValue','validatePositiveInteger','validateStringValue','columnConstraintsAux','createOtherLoop','validateToken','set','validateProg','createOtherLoop','validateCreateOther','validateDdl',}
out=[];ns=None
lines=src.split('\n')
seen=set()
i=0
while i<len(lines):
    l=lines[i]
    m=re.match(r'namespace (V|Sqlite|Postgres|Mysql)$',l)
    if m:
        ns=m.group(1); 
        if ns!='V' : out.append(f'namespace {ns}\nopen DDL V')
        else: out.append('namespace V')
    m=re.match(r'end (V|Sqlite|Postgres|Mysql)$',l)
    if m: out.append(l); ns=None
    m=re.match(r'theorem (\w+)_pick(.*?):\s*(?:Prog\.Pick (.*?) := by|$)',l)
    if m and ns and m.group(1) not in skip and (ns,m.group(1))!=('Mysql','validateConstraintPrimaryKey'):
        name=m.group(1); args=m.group(2).strip()
        j=i
        blk=l
        while lines[j+1].startswith(' '): j+=1; blk+='\n'+lines[j]
        st=re.search(r'Prog\.Pick (.*?) := by',blk,re.S).group(1)
        need='isNum' in args
        a2=args.replace('(isNum : Str → Bool)','{isNum : Str → Bool} (hN : NumOK isNum)')
        rec=re.search(r'induction n',blk) is not None
        h='  have _ := hN\n' if need else ''
        if ns=='Sqlite' and name=='validateTableOptions':
            out.append('theorem validateTableOptions_cost : Cost validateTableOptions := by\n  unfold validateTableOptions; cost_all\nmacro_rules | `(tactic| cost_lem) => `(tactic| with_reducible apply validateTableOptions_cost)')
            out.append('theorem validateTableDefinition_cost {isNum : Str → Bool} (hN : NumOK isNum) (n : Nat) : Cost (validateTableDefinition isNum n) := by\n  have _ := hN\n  unfold validateTableDefinition; cost_all\nmacro_rules | `(tactic| cost_lem) => `(tactic| (with_reducible apply validateTableDefinition_cost; assumption))')
            i=j+1; continue
        if name=='validate':
            out.append(f'theorem validateCreateOther_cost (n : Nat) : Cost (validateCreateOther otherKinds n) := by\n  unfold validateCreateOther; cost_all\nmacro_rules | `(tactic| cost_lem) => `(tactic| with_reducible apply validateCreateOther_cost)')
            out.append(f'theorem validateDdl_cost {{isNum : Str → Bool}} (hN : NumOK isNum) (n : Nat) : Cost (validateDdl isNum n) := by\n{h}  unfold validateDdl; cost_all\nmacro_rules | `(tactic| cost_lem) => `(tactic| (with_reducible apply validateDdl_cost; assumption))')
        body=(f'  induction n with\n  | zero => exact Cost.timeout\n  | succ n ih => unfold {name}; cost_all' if rec else f'  unfold {name}; cost_all')
        tac=f'(with_reducible apply {name}_cost; assumption)' if need else f'with_reducible apply {name}_cost'
        if name=='validateColumnConstraints': pass
        out.append(f'theorem {name}_cost {a2} : Cost {st} := by\n{h}{body}\nmacro_rules | `(tactic| cost_lem) => `(tactic| {tac})')
        i=j
    i+=1
old=open('lean/Verif/Proof/Cost.lean').read()
mark='-- generated from here on\n'
head=old[:old.index(mark)+len(mark)]
open('lean/Verif/Proof/Cost.lean','w').write(head+'\n'+'\n\n'.join(out)+'\n\nend DDL\n')
