"""Generate lean/Verif/Proof/Work{Sqlite,Postgres,Mysql}.lean from the model files."""
import re

SPECIAL = {
 ('Mysql','validateStringValue'): '''def validateStringValue_l (set : Bool) : LinF fun _ => validateStringValue set := by
  refine ⟨.name, fun _ => Lin.one (A := fun t => isStringValue D (t.headD ' ')) (set := set) (fun ts => ?_) (fun ts hg => ?_)⟩
  · have : workA (validateStringValue set) ts ≤ 6 := by
      unfold validateStringValue
      simp only [workA]
      cases ts.headD EOF with
      | nil => simp
      | cons c r => exact Nat.succ_le_succ (Lin.ite_work (by simp [next, workA]) (by simp [syntaxError, workA]))
    show (workA (validateStringValue set) ts : Int) ≤ 6
    omega
  · unfold validateStringValue
    cases ts with
    | nil => rfl
    | cons t r =>
      cases t with
      | nil => exact absurd rfl (hg [] (by simp)).1
      | cons c t =>
        show runA (cond (isStringValue D c) (next set) syntaxError) ((c :: t) :: r) =
          if isStringValue D c = true then .ok () r (keep set (c :: t)) else .fail ((c :: t) :: r)
        cases isStringValue D c
        · rfl
        · exact runA_next set ((c :: t) :: r)
''',
 ('Mysql','validateConstraintPrimaryKey'): '''def validateConstraintPrimaryKey_l : LinF fun _ => validateConstraintPrimaryKey := by
  refine ⟨⟨10 - RATE, 10⟩, fun _ => ?_⟩
  have hq : Lin ((validateToken true ["PRIMARY"]).bind fun _ => validateToken true ["KEY"]) ⟨9 - RATE, 9⟩ := by
    apply Lin.weaken
    case h => lin
    krfl
  intro ts hg
  have e1 : workA validateConstraintPrimaryKey ts = (if isKw ["KEY"] (hd ts) = true then 4
      else workA ((validateToken true ["PRIMARY"]).bind fun _ => validateToken true ["KEY"]) ts) + 1 := by
    show workA (cond (isKw ["KEY"] (hd ts)) _ _) ts + 1 = _
    cases isKw ["KEY"] (hd ts) <;> rfl
  rw [e1]
  unfold validateConstraintPrimaryKey
  rw [runA_if]
  split
  · rename_i h
    cases ts with
    | nil => exact absurd h (by decide)
    | cons t ts =>
      refine ⟨fun a r o e => ?_, fun r e => (by cases e)⟩
      cases e
      simp only [List.tail_cons, List.length_cons, RATE]
      omega
  · refine ⟨fun a r o e => ?_, fun r e => ?_⟩
    · have := (hq ts hg).1 _ _ _ e; simp only [RATE] at this ⊢; omega
    · have := (hq ts hg).2 _ e; simp only [RATE] at this ⊢; omega
''',
}
# bounds for the loops
LOOP = {'validateConstraintReferencesAux': ('10','200'), 'validateIndexOption': ('10','200'), 'validateTableOptions': ('10','200'), 'validate': ('10','250')}

def lem(name, hn, extra, fuel):
    call = f"({name}_l{' (by assumption)' if hn else ''}{' _'*extra})" if (hn or extra) else f"{name}_l"
    return f"macro_rules | `(tactic| lin_lem) => `(tactic| with_reducible exact {call}.2 {'_' if fuel else '0'})\n"

def gen(ns):
    src = open(f'lean/Verif/Model/{ns}.lean').read()
    out = [f'''import Verif.Proof.WorkSweep
/-
The {ns} validator does linear work (generated by tools/gen_work.py).
-/

namespace DDL.{ns}
open DDL V Spec
''']
    for m in re.finditer(r'^def (\w+)((?: \([^)]*\))*) : ((?:Nat → )?)Prog Unit', src, re.M):
        name, ps, loop = m.group(1), re.findall(r'\((\w+) : ([^)]*)\)', m.group(2)), m.group(3) != ''
        hn = any(p == 'isNum' for p,_ in ps)
        hasn = loop or any(p == 'n' for p,_ in ps)
        setp = any(p == 'set' for p,_ in ps)
        app = name + ''.join(' '+p for p,_ in ps) + (' n' if loop else '')
        fam = f"fun {'n' if hasn else '_'} => {app}"
        binders = (' {isNum : Str → Bool} (hN : NumOK isNum)' if hn else '') + (' (set : Bool)' if setp else '')
        h = '  have _ := hN\n' if hn else ''
        sp = SPECIAL.get((ns,name))
        if sp:
            out.append(sp)
        elif loop:
            b, f = LOOP.get((ns,name), LOOP.get(name, ('0','200')))
            out.append(f'''def {name}_l{binders} : LinF {fam} := by
  refine ⟨⟨{b}, {f}⟩, fun n => ?_⟩
{h}  induction n with
  | zero => exact .timeout
  | succ n ih => lin_loop {name}
''')
        elif name == 'validateColumnConstraints':
            key = 'toUpper' if ns == 'Sqlite' else 'constraintKey'
            out.append(f'''theorem columnConstraintsAux_l{binders} (n : Nat) (ls : List Str) :
    Lin (columnConstraintsAux columnConstraintKinds {key} (validateColumnConstraint isNum) n ls) ⟨1, 100⟩ :=
  columnConstraintsAux_lin (validateColumnConstraint_l hN) (by krfl) n ls
macro_rules | `(tactic| lin_lem) => `(tactic| with_reducible exact columnConstraintsAux_l (by assumption) _ _)

def {name}_l{binders} : LinF {fam} := by
  constructor; intro n; unfold {name}; lin
''')
        else:
            if name == 'validateDdl':
                out.append(f'''def validateCreateOther_l : LinF fun n => validateCreateOther otherKinds n := by
  constructor; intro n; unfold validateCreateOther; lin
macro_rules | `(tactic| lin_lem) => `(tactic| with_reducible exact validateCreateOther_l.2 _)
''')
            out.append(f'''def {name}_l{binders} : LinF {fam} := by
{h}  constructor; intro n; unfold {name}; lin
''')
        out[-1] += lem(name, hn, 1 if setp else 0, hasn)
    out.append(f'end DDL.{ns}\n')
    open(f'lean/Verif/Proof/Work{ns}.lean','w').write('\n'.join(out))

for ns in ('Sqlite','Postgres','Mysql'): gen(ns)
