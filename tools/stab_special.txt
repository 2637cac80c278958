--- V.validateBracketsAux
  induction n with
  | zero => exact Stab.zero _ _
  | succ n ih =>
    intro ts hts
    cases ts with
    | nil => rw [brackets_nil, brackets_nil]
    | cons t r =>
      unfold validateBracketsAux
      simp only [runA_if]
      split
      · rfl
      · split
        · refine Stab.bindEat (Eats.validateToken _ _) (fun _ => ?_) _ hts
          exact Stab.bind ih fun _ => Stab.bind (Stab.refl _ _) fun _ => ih
        · rw [runA_seq, runA_seq, runA_next]
          show (runA _ r).pre _ = (runA _ r).pre _
          rw [ih r hts.tail]
--- V.createOtherLoop
  induction n generalizing b with
  | zero => exact Stab.zero _ _
  | succ n ih =>
    intro ts hts
    cases ts with
    | nil => rfl
    | cons t r =>
      have key : ∀ c : Bool, runA ((next false).bind fun _ => createOtherLoop n c) (t :: r) =
          runA ((next false).bind fun _ => createOtherLoop (n + 1) c) (t :: r) := by
        intro c
        rw [runA_bind, runA_bind, runA_next]
        show (runA _ r).pre _ = (runA _ r).pre _
        rw [ih c r hts.tail]
      unfold createOtherLoop
      rw [runA_oob, runA_oob]
      show runA _ _ = runA _ _
      simp only [show matchToken ["BEGIN"] = .token fun t => .ret (isKw ["BEGIN"] t) from rfl,
        show matchToken ["END"] = .token fun t => .ret (isKw ["END"] t) from rfl, Prog.bind, runA]
      cases (b || isKw ["BEGIN"] (hd (t :: r)))
      · simp only [cond_false]
        simp only [runA_if]
        split
        · rfl
        · exact key _
      · exact key _
--- Sqlite.validateColumnConstraints
  unfold validateColumnConstraints
  refine Stab.bind (Stab.refl _ _) fun _ => columnConstraintsAux_st (fun n => validateColumnConstraint_st0 hN n) ?_ n _
  exact fun n ts hts => eats_of_impls (SqliteImpl.colCon_impl hN n) (SqliteImpl.cons_colCon isNum) ts hts
--- Postgres.validateColumnConstraints
  unfold validateColumnConstraints
  refine Stab.bind (Stab.refl _ _) fun _ => columnConstraintsAux_st (fun n => validateColumnConstraint_st0 hN n) ?_ n _
  exact fun n ts hts => eats_of_impls (PostgresImpl.colCon_impl hN n) (PostgresImpl.cons_colCon isNum) ts hts
--- Mysql.validateColumnConstraints
  unfold validateColumnConstraints
  refine Stab.bind (Stab.refl _ _) fun _ => columnConstraintsAux_st (fun n => validateColumnConstraint_st0 hN n) ?_ n _
  exact fun n ts hts => eats_of_impls (MysqlImpl.colCon_impl hN n) (MysqlImpl.cons_colCon isNum) ts hts
--- Sqlite.validate
  induction n with
  | zero => exact Stab.zero _ _
  | succ n ih =>
    unfold validate
    refine Stab.ifM (Stab.refl _ _) ?_
    intro ts hts
    rw [runA_seq, runA_seq, ← validateDdl_st0 hN (n + 1) ts hts]
    cases hr : runA (validateDdl isNum (n + 1)) ts with
    | ok a r o =>
      show (runA _ r).pre o = (runA _ r).pre o
      have he : Eats (validateDdl isNum (n + 1)) := Eats.bind (Eats.validateToken _ _) _
      rw [ih r (hts.of_lt ((runA_suffix _ ts).1 _ _ _ hr) (he _ _ _ _ hr))]
    | _ => rfl
--- Postgres.validate
  induction n with
  | zero => exact Stab.zero _ _
  | succ n ih =>
    unfold validate
    refine Stab.ifM (Stab.refl _ _) ?_
    intro ts hts
    rw [runA_seq, runA_seq, ← validateDdl_st0 hN (n + 1) ts hts]
    cases hr : runA (validateDdl isNum (n + 1)) ts with
    | ok a r o =>
      show (runA _ r).pre o = (runA _ r).pre o
      have he : Eats (validateDdl isNum (n + 1)) := Eats.bind (Eats.validateToken _ _) _
      rw [ih r (hts.of_lt ((runA_suffix _ ts).1 _ _ _ hr) (he _ _ _ _ hr))]
    | _ => rfl
--- Mysql.validate
  induction n with
  | zero => exact Stab.zero _ _
  | succ n ih =>
    unfold validate
    refine Stab.ifM (Stab.refl _ _) ?_
    intro ts hts
    rw [runA_seq, runA_seq, ← validateDdl_st0 hN (n + 1) ts hts]
    cases hr : runA (validateDdl isNum (n + 1)) ts with
    | ok a r o =>
      show (runA _ r).pre o = (runA _ r).pre o
      have he : Eats (validateDdl isNum (n + 1)) := Eats.bind (Eats.validateToken _ _) _
      rw [ih r (hts.of_lt ((runA_suffix _ ts).1 _ _ _ hr) (he _ _ _ _ hr))]
    | _ => rfl
--- Postgres.validateTableOptions
  induction n with
  | zero => exact Stab.zero _ _
  | succ n ih =>
    unfold validateTableOptions
    refine Stab.ifM (Stab.refl _ _) (Stab.ifM (Stab.refl _ _) (Stab.bind (Stab.refl _ _) fun _ => ?_))
    exact Stab.bindEats (validateTableOption_st0 (n + 1))
      (eats_of_impls (PostgresImpl.option_impl (n + 1)) PostgresImpl.cons_option) fun _ => ih
--- Mysql.validateTableOptions
  induction n with
  | zero => exact Stab.zero _ _
  | succ n ih =>
    unfold validateTableOptions
    refine Stab.ifM (Stab.refl _ _) (Stab.ifM (Stab.refl _ _) (Stab.bind (Stab.refl _ _) fun _ => ?_))
    exact Stab.bindEats (validateTableOption_st0 hN (n + 1))
      (eats_of_impls (MysqlImpl.option_impl hN (n + 1)) (MysqlImpl.cons_option isNum)) fun _ => ih
--- Mysql.validateIndexOption
  have _ := hN
  induction n with
  | zero => exact Stab.zero _ _
  | succ n ih =>
    unfold validateIndexOption
    refine Stab.ifEat (by decide) (Stab.bind (Stab.refl _ _) fun _ => Stab.bind (Stab.refl _ _) fun _ => ih) ?_
    refine Stab.ifM (Stab.bindEats (Stab.refl _ _) (fun ts _ a r o hr => ?_) fun _ => ih) ?_
    · exact Eats.bind (Eats.validateToken _ _) _ _ _ _ _ hr
    · st_all
