# Formal model of kodaimura/ddlparse: design

Everything is in Lean 4 (`lean/`, `lake build`). The properties are in `properties.jsonl`, the
theorems for them in `lean/Verif/Props/` (named `Cnn_…`), the mapping in `MANIFEST.json`.

## 1. What is modelled

The whole parse path, function by function, under `lean/Verif/Model/`. Every definition cites the
lines it models.

| Go file | Lean module | remarks |
|---|---|---|
| `internal/common/{constants,utils,errors}.go`, `internal/types/types.go` | `Model/Basic.lean` | strings are `List Char`, the rune sequence of `[]rune(ddl)` |
| `internal/lexer/lexer.go` | `Model/Lexer.lean` | every function; loops take fuel |
| `internal/validator/validator.go` | `Model/Validator.lean` | state and primitive methods; helpers that have the same text in the three dialects |
| `validator_sqlite.go`, `validator_postgresql.go`, `validator_mysql.go` | `Model/{Sqlite,Postgres,Mysql,Words}.lean` | every validate function, all word tables |
| `internal/converter/converter.go` | `Model/Converter.lean` | every function |
| `ddlparse.go` | `Model/Parse.lean` | Parse, ParseForce (the three wrappers are `Parse` with a constant) |
| the objects made by `NewLexer`, `NewValidator`, `NewConverter` | `Model/Objects.lean` | one step closer to the code: whole input, `size`, `i` as integers, index expressions that can panic, `init`, and the state an object is left in; proved equal to the models above (C39, C01) |
| `ValidateError.Error` (`errors.go`), `json.Marshal` of the results | `Model/Output.lean` | the message; whether writing JSON fails (encoding/json is not part of /repo) |
| `strconv.ParseFloat` as used by `common.IsNumericToken` | `Model/Float.lean` | which strings are accepted; from the published Go 1.22 library, not part of /repo |
| `strconv.ParseFloat` as used by `convertLiteralValue` | `Model/Value.lean` | the float64 of a token: the exact fraction, rounded to nearest even as documented; the algorithms of the library are not modelled |
| `[]rune(ddl)`, `string(rune)` in `lexer.go`; `Parse`, `ParseForce` on bytes | `Model/Bytes.lean` | `decoderune`, `encoderune` of the Go runtime, not part of /repo; connected to the character models by C48 |
| all of these files, as text | `Go/Src*.lean`, `Go/Semantics.lean` | syntax trees of the 235 functions, written by `tools/gen_go.py` from /repo, and an interpreter for them; proved to have the outcomes of `Model/Parse.lean` (C53) |
| slices of the converter, as pieces of arrays | `Model/Memory.lean` | `append` in place or into a new array; every function of `converter.go` that makes slices; `Parse` and `ParseForce` on top. The room that `append` leaves is a parameter (C61, C62) |
| the same functions as goroutines | `Model/Concurrent.lean` | a call is the tree of the operations (new array, read a cell, write a cell) it does on a memory that others use too; `append` cell by cell; the token slices; `Parse` and `ParseForce` on top. The order in which goroutines do their operations is arbitrary, and the rest of the program may do anything to memory that no running call owns (C65). Operations happen one at a time; tokens are read from memory before the phase that uses them |
| `types.go` with its JSON names, `json.Marshal` of the results | `Model/Json.lean` | the text, for slices in memory (nil is `null`); from the published Go 1.22 library, not part of /repo. How a float64 is written is a parameter (C63) |
| operations performed by lexer, syntax check and converter | `Model/Work.lean`, `Model/Counted.lean` | `work` counts those of `run`; `Counted` is the text of the lexer and converter models in monads that count (written by `tools/gen_counted.py`), proved to compute the same. Not counted: comparing and joining strings inside one operation, so `token += c` counts once however long the token is |

Outcomes are explicit: `ok`, `fail line near` (a ValidateError), `panic` (index or slice out of
range), `timeout` (fuel exhausted). Every Go loop or recursion takes a fuel argument. "Parse
returns r" is `∃ n, parseN n … = r`, "Parse never returns" is `∀ n, parseN n … = timeout`. No
termination is assumed. More fuel never changes an answer (`Proof/Mono`, `ConvGen`, `LexMono`),
and fuel `2·length+1` is always enough (C41).

The validators are programs in a small free monad `Prog`. Its operations are the methods of the Go
struct that the dialect code calls: `token()`, `isOutOfRange()`, `token()[0:1]`, `next(set)`,
`set(token)`, `syntaxError()`. An interpreter `run` gives them their meaning on the fields of the
struct (with newline tokens and line counting), `runA` is the same without newlines. Facts about
all validator functions (line numbers, error token, newline insensitivity, panics, independence of
what follows) are proved once by induction on programs.

### Simplifications

* Loops of the form `for { … break }` are tail recursions with fuel; where a Go function calls a
  second recursive function, the second one is inlined at the call so that one fuel argument is
  enough (`validateBracketsAux`, `convertExprAux`; the unfolding is proved to be the code's).
* `[]` stands for nil as well as for an empty slice. In the results the code produces nil for an
  empty list in every place but `[]Table{}` and lists of column names (C62); `Reference.ColumnNames` is an `Option`,
  because there nil means that no list was given.
* Go strings are bytes, those of the model characters. `Model/Bytes.lean` models `Parse` on bytes, with
  the decoding and encoding of the Go runtime; C48 proves that it makes no difference.
* What `strings.ToUpper` does to letters outside ASCII is a parameter of the model (`CaseMap` in `Model/Basic.lean`): any map
  of characters that is the usual one on ASCII. All theorems about what is returned are for every such map, but these:
  C48, whose strings are bytes, and concrete cases (the negations). Those are about `asciiCase`, which leaves other letters alone; C54 says what they are worth for the others. Only the converter
  applies `strings.ToUpper` to words that need not be ASCII, and only when it has lost its place (see below).
* A numeric default is its token in the results of the model. `goValue` (`Model/Value.lean`) is the value that
  Go reports for it (C49).
* Go `int` is unbounded in the model except in `strconv.Atoi` (modelled with the int64 range).

### Not modelled

Memory and stack limits: a run that never returns shows in reality as a stack overflow
(`validateBracketsAux` recurses) or as unbounded memory (`convertTableDefinition` appends).
`json.MarshalIndent`, and reading JSON back into the Go types. `Filter`, `Remove` of `utils.go` (not used by the
parse path). Concurrency: C65 is about arrays. The objects of the lexer, syntax check and converter are made by each call for
itself and are not in its memory; package variables are only read (an assignment to one would be stuck in C53). That operations on
memory happen one at a time is an assumption, harmless in Go because no two goroutines use the same array (C65).

## 2. Specification

Under `lean/Verif/Spec/`, independent of the model (only the public result types, `Str` and the
dialect names are shared):

* `Lang`: a notation for grammars over tokens: `kw`, `opt`, `seq`, `alt`, `star`, … with values.
  A phrase is a relation between the tokens at hand, the rest, and a value. It is read with maximal
  munch: an optional part is skipped only if it does not start at the next token.
* `Ast`, `Grammar`, `Words`: the abstract syntax and the grammar of the three dialects, following
  the README, with the differences of section 4. `Words` is a second copy of the reserved words
  and type names, made so that an edit of the model's tables cannot change the specification.
* `Denote`: the `Table` that a statement denotes. `Faithful` lists the exclusions under which the
  code reports it.
* `Lexeme`: a text as a sequence of lexemes (words, symbols, quoted texts, blanks, comments), with
  the tokens of each. `Lexical`: the complete lexical grammar, by rules, for all texts.
* `Obs`: what can be observed of a run. `Print`: writing tables out (C10); `Tidy`: the scripts whose tables can be
  written out (C58). `Hang`: entries after
  which the converter loses its place. `Alike`, `KeyWords`: texts that correspond. `Session`: using
  one object several times. `Again`: checking the kept tokens once more.
  `Dialects`: texts that two dialects read differently.
  `Memory`: what lies in memory, and which arrays it uses. `Json`: JSON texts and what they say, by the rules of RFC 8259
  (without blanks between the parts); the JSON of the tables.
  `Readme`: the grammar of the README as it stands, with marks on the parts that do not work.
  `Origin`: where the parts of a table come from. `Output`: numbers that JSON does not have.

## 3. How the properties are proved

* C04–C06 (grammar): `Impl p L E ts` says that the validator function `p` accepts `ts` exactly if
  the phrase `L` derives a prefix, leaving the same rest and keeping the tokens `E`; that it
  fails only if there is no derivation; and that it runs out of fuel only if there is no derivation
  and a parenthesis is never closed. `Proof/Impl` has a rule for each control structure,
  `Proof/Shared` and `Proof/{Sqlite,Postgres,Mysql}Impl` one lemma per validator function.
  Derivations are unique (`Det`), so soundness and completeness come together.
* C07–C09 (results): the converter, on the tokens kept for a derivation, computes the denotation
  (`Proof/Emit`, `Proof/Conv`).
* C03 (unclosed parentheses): if a validator reports an error at the end of the input, then it also
  does not accept the input followed by certain further tokens (`Prog.Pick`). Inside an
  expression everything may follow; so there is no error and no success, for any fuel. The converse
  (`C03_iff`: nothing else keeps the syntax check from returning) comes with C51: each validator that
  runs out of fuel has an open parenthesis at which any balanced text would be accepted (`Open`).
* C33, C34 (lost place): after the part reported in step, the converter stands in front of tokens
  that it takes for further columns; it reaches the end of the tokens inside the loop of
  `convertTableDefinition`, which has no test for the end (`Proof/ConvHang`).
* C14–C18 (errors): induction on programs; C16 from the fact that a program looks only at the
  tokens it reads and one more.
* C19–C21, C29, C30, C37 (lexer): the lexer is a transducer reading one character at a time
  (`Proof/Lexer`), the transducer reads lexeme sequences as the specification says.
* C57: the transducer answers as the rules say, by induction on the derivation; every text has a derivation, by induction on
  its length (`Proof/Lexical`). The equivalences follow because the transducer is a function.
* C22, C40: every validator function looks at tokens only through a few tests (`AlikeV`); the sweep
  over all functions is generated (`tools/gen_alike.py`). The converter transports the relation
  to the results.
* C10, C11, C38: derivations are built from descriptions, concatenated, or stripped.
* C58: each part of the denotation of a tidy script meets the condition that C10 puts on it: names are quotable, types are names of
  the dialect, the text of an expression is again one balanced phrase, as its tokens joined differ from the old ones only by
  merged words (`Proof/Rewrite`). Conversely what is written is tidy.
* C59: up to the first part that is not faithful the converter is in step (`ConvHang`). From there it takes a column whose type is no
  type of the dialect (`Proof/Exact`), or, after an index entry, it leaves the definition early and reads its rest as tables of
  which only a name is reported; by induction over the statements these never become the tables that are due
  (`Proof/ExactScript`).
* C60: in step up to that part, and the loops of the converter only add at the end of what they have (`Proof/Before`).
* C23–C25, C31, C32, C35, C36: facts about derivations and denotations.
* C41: fuel beyond the number of tokens changes nothing, not even a timeout (`Proof/Stab`,
  `Proof/ConvStab`), and a validator keeps at most two tokens per token read (`Proof/Cost`).
* C42, C43, C45: whatever the converter does, it reads kept tokens, and it finishes a table only in
  front of a token (`Proof/Origin`); kept tokens are tokens of the text (`Proof/Cost`).
* C46: the reader of `Model/Float` is split at the end of the digits; the underscore automaton is
  read as the grammar of digit runs (`Proof/Number`); numbers are words (`Proof/NumberText`).
* C47: the same tokens read twice. `Inv` (`Proof/AgreeCon`) lists the forms of a column constraint with what
  may follow; for each pair of dialects either both readings end at the same place, or one of them
  stands in front of a word that nothing accepts there (`Step`, `Proof/AgreeStep`). The same for types, entries,
  options and statements (`Proof/AgreeType`, `AgreeItem`, `AgreeScript`). The lexers differ in two characters.
* C48: decoding is characterised against the UTF-8 of Lean's library. A token and its bytes are alike in the
  sense of C22/C40; the quotes cut off are ASCII because a quoted token ends with its quote (`Proof/LexBare`).
* C49: rounding a fraction at the place of the 53rd binary digit gives the nearest float64, and there is one
  nearest float64 (`Proof/Round`); the fraction that is read is the number that is written (`Proof/Value`).
* C51: `Via` (Proof/Viable) says of each validating function that what it has read when it fails or does
  not return can be completed, with what it always takes (`Info.ne`), with what it can be satisfied (`Info.d`)
  and in front of which tokens it stops (`Info.f`). Rules combine `Via` along the code; the sweep over the
  validators is generated by `tools/gen_viable.py`. `lexes_cut` (Proof/Cut) cuts a text in front of a token.
* C50: a phrase of the README is read without lookahead, the grammar of C04–C06 with maximal munch. `Takes`
  (`Proof/Readme`) says that the latter takes all of a phrase if what follows begins with none of the words with
  which the optional parts left out begin; which words can follow is computed from the notation (`first`, `clear`).
  One lemma per phrase (`Proof/Readme{Common,Sqlite,Postgres,Mysql,Script}`); the witnesses are checked by a
  recogniser proved sound (`Proof/ReadmeCheck`).
* C52: an amortised bound for every function, `operations + rate * rest ≤ rate * input + const` (`Lin`, `CLin`,
  `LLin`), composed by the bind rules; the constants of each function are computed by unification in a sweep
  over the functions (`Proof/Work*`, `Proof/Counted*`) and only loops state theirs. `rate` is 100 per token for
  the syntax check, 40 per token for the converter, 20 per character for the lexer.
* C53: the meaning of the trees is a chain of approximations, one for each fuel, with a limit (`go`, `exe` in
  `Proof/GoLimit`) that satisfies the equations of the statements (`Proof/GoBase`). Two halves: where the model
  answers, the limit answers the same; where the model answers for no fuel, neither do the trees. For the validators
  both are proved together by rules that turn a tree into a `Prog` (`Proof/Go{Rules,Shared,Sqlite,Postgres,Mysql}`);
  for lexer and converter by symbolic execution of each function (`Proof/Go{Lexer,Converter,ConverterLow}`); the
  exported functions in `Proof/GoTop`.
* C54: the converter with two maps of letters, in step (`Proof/Letters`); for C07–C09 the proofs of these, with the map as a
  parameter.
* C55: a phrase of the grammar depends only on its own tokens and on whether the next token is one of a list (`Fol` in
  `Proof/Follow`, by instance search over the grammar); so constraints can be exchanged unless the next one begins with
  a word of that list (`Proof/Order`).
* C56: entries consume balanced tokens with commas inside parentheses only (`Flat`, `Proof/Flat{,Item}`), and do not look at
  a comma or closing parenthesis behind them (`Fol` again); so balanced tokens are rows of entries in one way (`Proof/Entry`).
* C61, C62: each function gives up some arrays and gets others (`Post`), and the value it makes uses exactly these (`Kind`); what a
  function has nothing to do with stays as it is (`Meets.frame`), as in separation logic (`Proof/Memory*`).
* C65: a goroutine sees only the arrays it has made (`View`); a statement `WP Q t v` says that `t`, started with the view `v`, uses no
  other array and ends as `Q` says. The rules are those of C61 with views for memories. For any number of goroutines an
  invariant (`Inv`) keeps the views apart: every array was made by one goroutine, and memory holds what that one sees. It
  survives every operation of every goroutine and every action of others, so nothing depends on the order.
* C63: the grammar of JSON is unambiguous (induction over a derivation, with what may follow a value); what `marshal` writes is
  derived from the rules for the JSON of the tables; that JSON is injective.
* C64: the converter proofs of C07–C09 once more, with a constraint name that is read as a keyword (`Proof/ConvReported`);
  for what is before the first such place, the proofs of C60 once more (`Proof/BeforeRep`).
* C66: from C51 (the reported token is the first wrong one), C57 and C03; that a list of tokens has only one first wrong token makes
  it an equivalence.
* C39: refinement between `Model/Objects` and the list models.

Generated sweeps (`tools/gen_*.py`) only write Lean text; the kernel checks the result.

Beside each property theorem stands an `example` with a concrete script that meets its hypotheses,
evaluated by the kernel. These examples are tests, not part of the proofs.

## 4. Where code, documentation and properties disagree

Properties that are false of the code are kept with their full statement in `properties.jsonl`;
there is a theorem `…_negation` with a witness (or for a whole class of inputs), and what remains
true is proved.

Never returns (C02, C03, C33, C34):
* `validateBracketsAux` has no test for the end of input: an unclosed parenthesis in an expression.
* `convertReference` does not know schema names: `REFERENCES s.u` as last reported constraint of the
  last entry. In other places the rest of the reference is read as columns (wrong result).
* MySQL `validateIndexKeys` keeps the `)` of index definitions: the converter ends the table there
  and reads the rest as another table (wrong result, or never returns).

Wrong results:
* `DEFAULT nan`, `DEFAULT -Infinity` are returned as float64 NaN and infinity, on which
  `json.Marshal` fails (C45).
* A number with a decimal point is three tokens: `DEFAULT 1.5` is rejected near `.` (C43).
* MySQL `FULLTEXT kk (aa)` after another entry: reported as a column `kk` of type `)` (C42, example).
* MySQL `CHECK (x) NOT NULL`: the NOT NULL is taken as the start of `NOT ENFORCED` and lost (C35).
* MySQL `UNIQUE KEY …`: a constraint KEY after UNIQUE is taken as part of it (C55).
* For ParseForce: a MySQL text with a `#` comment inside parentheses is accepted by SQLite, which puts the
  comment into the expression (C47).
* A column constraint named AUTO_INCREMENT (or, outside SQLite, AUTOINCREMENT) is read as that
  constraint (C31).
* Names in key lists keep their quotes (C32).
* An unnamed EXCLUDE as first entry (PostgreSQL) is read as a column.
* ParseForce returns no error if no dialect accepts: `err` is shadowed (C27).
* Integers above 2^53 are rounded: `DEFAULT 9007199254740993` is reported as 9007199254740992 (C49).
* Bytes that are not UTF-8 become U+FFFD in the results (C48).
* For unknown Rdbms values names keep their quotes (C28).

Errors:
* A newline as first token is not counted (C14).
* `*` or `/` directly before a newline in a block comment hides the newline (C14).

Lexer:
* A comment directly after a comment is not recognised, `**/` does not close a comment, `-/*` and
  `/--` do not start one (C20).
* A quote of another kind inside a quoted text swallows the character after it (C21).
* `'it''s'` is two tokens; newlines inside quoted texts are dropped; `\r` is not a blank; `=` is not
  a symbol, `.` always is (so `DEFAULT 1.5` is a syntax error).
* Keywords in mixed case are not recognised (C22).

README against code (the grammar of C04–C06 follows the code; witnesses in C50):
* the final `;` is mandatory in all dialects (C13);
* `[CONSTRAINT name]` may be given once per column only, before the first constraint;
* SQLite: MATCH takes SIMPLE, PARTIAL or FULL, not a name; table options are separated by commas;
  after `REFERENCES t(a)`, `NOT` must be followed by DEFERRABLE, so `REFERENCES t(a) NOT NULL` is
  rejected;
* PostgreSQL: `AS (expr)` without GENERATED is always rejected;
* a constraint of one kind cannot be given twice for a column;
* PostgreSQL: a table cannot be called IF;
* MySQL: USING in UNIQUE needs an index name in front; `[CONSTRAINT [symbol]]` before CHECK only as first
  constraint; `INDEX (a)` never returns;
* MySQL: the column list of a column's REFERENCES is optional; table CHECK takes `[NOT] ENFORCED`,
  not NO INHERIT;
* MySQL's reserved word list has `INFILEx` for INFILE, so INFILE can be used as a name.

## 5. Trusted base

* The Lean 4.33.0 kernel. Property theorems depend on `propext`, `Classical.choice` and
  `Quot.sound` and on nothing else (three of them on fewer); section 6 lists how to reprint this. No axioms of our own, no
  `sorry`, no `native_decide`, no `bv_decide`. `decide +kernel` is used for examples, for finite
  tables (reserved words) and for facts about fixed keywords.
* The reading of the Go code in `Model/`. For the parse path it need not be trusted: C53 proves it equal to
  the source run by an interpreter. What is trusted instead is
  - `tools/gen_go.py`, which parses the Go files and writes the trees. It resolves names, writes out zero values and
    composite literals, and turns `switch`, `op=` and `if init; cond` into simpler statements; anything it does not know
    stops it. Running it on /repo reproduces `lean/Verif/Go/` byte for byte;
  - `Go/Syntax.lean` and `Go/Semantics.lean`, in particular the simplifications listed at the head of the latter
    (strings as characters, unbounded `int`, pointers by value and result, slices as values; for strings see C48, for the
    slices of the converter C61);
  - the library functions in `Lib.run`: `strings.ToUpper/ToLower` on ASCII (any map of the other characters), `strconv.Atoi`, `strconv.ParseFloat` (a parameter),
    the one regular expression. They are those of `Model/Basic.lean`, so C53 says nothing about them.
  `Model/{Float,Value,Bytes,Output,Work,Counted,Memory,Concurrent,Json}` are outside C53. The expectations of the repo's own tests are
  transcribed in `Verif/Tests.lean` by `tools/gen_tests.py` and evaluated against the model, and
  the accept/refuse table of Go's own `atof_test.go` in `Verif/TestsFloat.lean`.
* About the number test `isNum` (is `strconv.ParseFloat` without error) the theorems assume at most
  `NumOK isNum`: an accepted string is not empty and starts with a digit, a sign, `.` or a
  letter of inf/nan; C22 also that letter case is ignored. Both are proved for `Go.isNumeric`, the
  model of the library function (`Proof/Float`).
* That the statements in `Props/` say what `properties.jsonl` says.

## 6. Checking

`lake build` in `lean/` checks everything. For the axioms:

    python3 -c "import json;print('import Verif');[print('#print axioms',t) for c in json.load(open('MANIFEST.json'))['claims'] for t in c['theorems']]" > /tmp/ax.lean
    cd lean && lake env lean /tmp/ax.lean

At the last update (219 theorems) every one of them printed `[propext, Classical.choice, Quot.sound]`, but for these,
which need less: `C53_results` [propext, Quot.sound], `C58_tokens` [propext, Quot.sound], `C65_progress` [propext].

`tools/manifest.py` writes `MANIFEST.json` and `lean/Verif.lean`, `tools/props.py` writes
`properties.jsonl`.

## 7. Mutation tests

`tools/mutate.py` edits a copy of the model (one realistic bug at a time, `seeded/mutants.json`),
rebuilds, collects the declarations that fail, and, from the dependency graph of the theorems,
the property theorems that no longer have a proof. It also runs the edited model on a corpus of
scripts to see whether the edit changes anything visible. `seeded/LOG.jsonl` has one line per
attempt; `survived` is false when something no longer compiles, and where that says nothing about the property
theorems (an edit without visible effect, or one that was not made consistently) the entry says so. Because C04–C09 say exactly which scripts are accepted and what is returned, a mutant with
a visible difference on an accepted or rejected script makes one of them false, also when the
declaration that fails first is a helper lemma. Mutants that survived led to tighter
specifications; see the field `theorems_tightened` in the log (the separate word tables of `Spec/Words`).

`tools/mutate_go.py` does the same with edits of a copy of the Go sources (`seeded/mutants_go.json`, numbers G001 on): the
syntax trees are written again from the edited text, and C53, which ties them to the model, has to fail.

Mutants of the specification (`edit` begins with "specification:") test the other side: an edited specification says something that
is not true of the code, so that the theorem must fail too.
