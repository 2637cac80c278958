"""Writes the sweep of lean/Verif/Proof/Stab.lean (everything after its header) from Proof/Mono.lean."""
import re
src=open('lean/Verif/Proof/Mono.lean').read()
body=src[src.index("namespace V\n"):]
special=open('tools/stab_special.txt').read()
spec={}
for b in re.split(r'^--- ', special, flags=re.M)[1:]:
    h,t=b.split('\n',1); spec[h.strip()]=t.rstrip('\n')
ns=None
out=[]
for blk in re.split(r'\n\n', body):
    m=re.search(r'^namespace (\w+)', blk, re.M)
    if m: ns=m.group(1)
    if 'theorem' not in blk:
        out.append(blk); continue
    name=re.search(r'theorem (\w+)_le', blk).group(1)
    if name=='columnConstraintsAux':
        continue
    args=re.search(r'_le(.*?): Prog\.Le', blk, re.S).group(1)
    st=re.search(r': Prog\.Le (.*) := by', blk, re.S).group(1)
    need='isNum' in args
    hyp='{isNum : Str → Bool} (hN : NumOK isNum) ' if need else ''
    args2=args.replace('(isNum : Str → Bool)','').replace('(n : Nat)','').strip()
    if f'{ns}.{name}' in spec:
        proof=spec[f'{ns}.{name}']
    elif 'induction' in blk:
        proof=f'  induction n with\n  | zero => exact Stab.zero _ _\n  | succ n ih => unfold {name}; st_all'
    else:
        proof=f'  unfold {name}; st_all'
    if 'have _' not in proof and need: proof='  have _ := hN\n'+proof
    names=" ".join(re.findall(r"\((\w+) :", args2))
    h="hN " if need else ""
    out.append(f'theorem {name}_st0 {hyp}{args2} (n : Nat) : Stab n {st} := by\n{proof}\n'
      f'theorem {name}_st {hyp}{args2} {{k n : Nat}} (h : k ≤ n) : Stab k {st} :=\n  Stab.mono h ({name}_st0 {h}{names} n)\n'
      f'macro_rules | `(tactic| st_lem) => `(tactic| with_reducible apply {name}_st)')
old=open('lean/Verif/Proof/Stab.lean').read()
head=old[:old.index("namespace V\n")]
open('lean/Verif/Proof/Stab.lean','w').write(head+'\n\n'.join(out).rstrip()+'\n')
