"""Generate lean/Verif/Proof/Viable{Sqlite,Postgres,Mysql}.lean from the model files."""
import re, sys

SPECIAL = {
 ('Sqlite','validateConstraintReferencesAux'): 'null',
 ('Mysql','validateIndexOption'): 'null',
 ('Mysql','validateStringValue'): '''def validateStringValue_v (set : Bool) : Fam fun _ => validateStringValue set :=
  ⟨_, fun _ => oneOf (t0 := S "\'\'") (set := set) (A := fun t => isStringValue D (t.headD ' ')) (by decide)
    (fun ts hg => by
      unfold validateStringValue
      cases ts with
      | nil => rfl
      | cons t r =>
        cases t with
        | nil => exact absurd rfl (hg [] (by simp)).1
        | cons c t =>
          show runA (cond (isStringValue D c) (next set) syntaxError) ((c :: t) :: r) =
            if isStringValue D c = true then .ok () r (keep set (c :: t)) else .fail ((c :: t) :: r)
          cases isStringValue D c
          · rfl
          · exact runA_next set ((c :: t) :: r)) (by decide +kernel)⟩
''',
 ('Mysql','validateConstraintPrimaryKey'): '''def validateConstraintPrimaryKey_v : Fam fun _ => validateConstraintPrimaryKey := by
  have e : ∀ ts, runA validateConstraintPrimaryKey ts = runA (ifM (matchToken ["KEY"])
      ((V.set (S "PRIMARY")).bind fun _ => (V.set (S "KEY")).bind fun _ => validateToken false ["KEY"])
      ((validateToken true ["PRIMARY"]).bind fun _ => validateToken true ["KEY"])) ts := by
    intro ts
    unfold validateConstraintPrimaryKey
    rw [runA_if, runA_if]
    split
    · rename_i h
      cases ts with
      | nil => exact absurd h (by decide)
      | cons t r =>
        rw [show hd (t :: r) = t from rfl] at h
        have hv : runA (validateToken false ["KEY"]) (t :: r) = runA (next false) (t :: r) := by
          rw [runA_validateToken, runA_next]; simp only [if_pos h]; rfl
        show ((runA (next false) (t :: r)).pre [S "KEY"]).pre [S "PRIMARY"] =
          ((runA (validateToken false ["KEY"]) (t :: r)).pre [S "KEY"]).pre [S "PRIMARY"]
        rw [hv]
    · rfl
  constructor
  intro n
  apply Via.congrP
  case e => exact e
  case e' => exact fun n ts => e ts
  all_goals via
''',
 ('Mysql','validateIndexKeysAux'): '''/-- One key of an index. -/
def indexKey_v (set : Bool) : Fam fun n => (ifM (matchToken ["("]) (validateExpr n false)
    ((validateName D set).bind fun _ => validateTypeDigitN false)).bind fun _ => skipToken false ["ASC", "DESC"] := by
  constructor; intro n; via

def validateIndexKeysAux_v (set : Bool) : Fam fun n => validateIndexKeysAux set n :=
  ⟨_, fun n => commaLoop set rfl (fun n => by
      rw [validateIndexKeysAux, Prog.bind_eq, Prog.bind_assoc]; rfl) (indexKey_v set) [S "(", S ")"]
    (by krfl) (by krfl) n⟩
''',
 ('Mysql','validateCommaSeparatedTableNames'): '''def validateCommaSeparatedTableNames_v (set : Bool) : Fam fun n => validateCommaSeparatedTableNames set n :=
  ⟨_, fun n => commaLoop set rfl (fun _ => rfl) (validateTableName_v D set) [S "cc"] (by krfl) (by krfl) n⟩
''',
}
DEFD = {'Sqlite':'[S "PRIMARY", S "KEY", S "(", S "cc", S ")"]','Postgres':'[S "PRIMARY", S "KEY", S "(", S "cc", S ")"]','Mysql':'[S "CONSTRAINT", S "PRIMARY", S "KEY", S "(", S "(", S ")", S ")"]'}

def lem(name, hn, extra, fuel):
    call = f"({name}_v{' (by assumption)' if hn else ''}{' _'*extra})" if (hn or extra) else f"{name}_v"
    if fuel:
        return f"macro_rules | `(tactic| via_lem) => `(tactic| with_reducible first\n  | exact {call}.2 _ | exact Via.unshift ({call}.2 _))\n"
    return f"macro_rules | `(tactic| via_lem) => `(tactic| with_reducible exact {call}.2 _)\n"

def gen(ns):
    src = open(f'lean/Verif/Model/{ns}.lean').read()
    out = [f'''import Verif.Proof.ViableSweep
/-
The {ns} validator stops only where the tokens read so far cannot be completed
(generated by tools/gen_viable.py).
-/

namespace DDL.{ns}
open DDL V Spec Via
''']
    for m in re.finditer(r'^def (\w+)((?: \([^)]*\))*) : ((?:Nat → )?)Prog Unit', src, re.M):
        name, ps, loop = m.group(1), re.findall(r'\((\w+) : ([^)]*)\)', m.group(2)), m.group(3) != ''
        if name == 'validate': continue
        hn = any(p == 'isNum' for p,_ in ps)
        hasn = loop or any(p == 'n' for p,_ in ps)
        setp = any(p == 'set' for p,_ in ps)
        app = name + ''.join(' '+p for p,_ in ps) + (' n' if loop else '')
        fam = f"fun {'n' if hasn else '_'} => {app}"
        binders = (' {isNum : Str → Bool} (hN : NumOK isNum)' if hn else '') + (' (set : Bool)' if setp else '')
        key = (ns, name)
        sp = SPECIAL.get(key)
        if sp and sp != 'null':
            out.append(sp)
        elif sp == 'null':
            out.append(f'''def {name}_v{binders} : Fam {fam} := by
  refine ⟨loopI false [] [S ")"], fun n => ?_⟩
  induction n with
  | zero => refine nullZero fun z hz => ?_; unfold {name}; null_all
  | succ n ih =>
    refine Via.shift ?_
    unfold {name}
    apply Via.fix
    all_goals via
''')
        elif name == 'validateColumnDefinitions':
            out.append(f'''def {name}_v{binders} : Fam {fam} :=
  ⟨_, fun n => commaLoop true rfl (fun _ => rfl) (validateColumnDefinition_v hN)
    {DEFD[ns]} (by krfl) (by krfl) n⟩
''')
        elif name == 'validateTableOptions' and loop:
            out.append(f'''def {name}_v{binders} : Fam {fam} := by
  refine ⟨loopI false [] [S ";"], fun n => ?_⟩
  induction n with
  | zero =>
    refine zero ?_
    rintro d ⟨⟩
    refine ⟨by simp, fun z _ hf => Ev.shift ⟨0, fun n _ => ⟨[], ?_⟩⟩⟩
    have hz := hd_only hf
    cases z with
    | nil => exact absurd hz (by decide)
    | cons t z =>
      show runA ({name}{' isNum' if hn else ''} (n + 1)) (t :: z) = _
      rw [{name}, runA_oob, if_neg (by simp), runA_if, if_pos (by rw [hz]; decide)]; rfl
  | succ n ih =>
    refine Via.shift ?_
    unfold {name}
    refine Via.oobRet (i := loopI false [] [S ";"]) ?_ (by decide)
    apply Via.fix
    case h => apply altStop; via
    all_goals krfl
''')
        elif name == 'validateTableOptions':
            out.append(f'''def {name}_v{binders} : Fam {fam} := by
  refine ⟨loopI false [] [S ";"], fun n => ?_⟩
  unfold {name}
  refine Via.oobRet (i := loopI false [] [S ";"]) ?_ (by decide)
  apply Via.fix
  all_goals via
''')
        elif name == 'validateColumnConstraints':
            key = 'toUpper' if ns == 'Sqlite' else 'constraintKey'
            out.append(f'''theorem columnConstraintsAux_v{binders} (n : Nat) :
    Via n (columnConstraintsAux columnConstraintKinds {key} (validateColumnConstraint isNum) n [])
      (fun n => columnConstraintsAux columnConstraintKinds {key} (validateColumnConstraint isNum) n [])
      (loopI false [] [S ")"]) :=
  columnConstraintsAux_via (validateColumnConstraint_v hN) (by krfl) n []
macro_rules | `(tactic| via_lem) => `(tactic| with_reducible exact columnConstraintsAux_v (by assumption) _)
''')
            if ns == 'Mysql':
                out.append(f'''def {name}_v{binders} : Fam {fam} := by
  constructor; intro n; unfold {name}
  simp only [Prog.bind_eq, optName]
  apply altNext
  case hp =>
    apply Via.altNe
    case h =>
      exact columnConstraintsAux_eats (validateColumnConstraint_v hN) (by krfl)
        (by decide) n []
    all_goals via
  all_goals via
''')
            else:
                out.append(f'''def {name}_v{binders} : Fam {fam} := by
  constructor; intro n; unfold {name}; via
''')
        elif name == 'validateTableConstraint' and ns == 'Mysql':
            out.append(f'''def {name}_v{binders} : Fam {fam} := by
  constructor; intro n; unfold {name}
  simp only [Prog.bind_eq, optName]
  via
''')
        elif name == 'validateTableOption' and ns == 'Mysql':
            out.append(f'''def {name}_v{binders} : Fam {fam} := by
  constructor; intro n
  unfold {name} validateTableOptionCommonLiteral validateTableOptionCommonString validateTableOptionCommon01
    validateTableOptionCommon01Default
  via
''')
        elif ns == 'Mysql' and name in ('validateTableOptionCommonLiteral','validateTableOptionCommonString','validateTableOptionCommon01','validateTableOptionCommon01Default'):
            continue
        elif name == 'validateDdl':
            out.append(f'''def validateCreateOther_v : Fam fun n => validateCreateOther otherKinds n := by
  constructor; intro n; unfold validateCreateOther; via
macro_rules | `(tactic| via_lem) => `(tactic| with_reducible first
  | exact validateCreateOther_v.2 _ | exact Via.unshift (validateCreateOther_v.2 _))

def {name}_v{binders} : Fam {fam} := by
  constructor; intro n; unfold {name}; via

/-- What is known about a statement: it reads something, it can be completed, and it stops at its end. -/
theorem ddl_info{binders} : ∃ i : Info, i.ne = true ∧ i.d.isSome = true ∧ i.f = (fun _ => true) ∧
    ∀ n, Via n (validateDdl isNum n) (fun n => validateDdl isNum n) i :=
  ⟨(validateDdl_v hN).1, by krfl, by krfl, by krfl, (validateDdl_v hN).2⟩
''')
        else:
            out.append(f'''def {name}_v{binders} : Fam {fam} := by
  constructor; intro n; unfold {name}; via
''')
        if name != 'validateDdl':
            out[-1] += lem(name, hn, 1 if setp else 0, hasn)
    out.append(f'end DDL.{ns}\n')
    open(f'lean/Verif/Proof/Viable{ns}.lean','w').write('\n'.join(out))

for ns in ('Sqlite','Postgres','Mysql'): gen(ns)
