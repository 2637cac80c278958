#!/usr/bin/env python3
"""Source of /verif/properties.jsonl (run: python3 tools/props.py > properties.jsonl)."""
import json
P = []
def p(title, statement, quantifier, why, anchors):
    P.append(dict(id="C%02d" % (len(P)+1), title=title, statement=statement,
                  quantifier=quantifier, why_tests_cant=why, anchors=anchors))

LEX="internal/lexer/lexer.go"; VAL="internal/validator/validator.go"
SQ="internal/validator/validator_sqlite.go"; PG="internal/validator/validator_postgresql.go"
MY="internal/validator/validator_mysql.go"; CV="internal/converter/converter.go"; TOP="ddlparse.go"

p("Parse never panics",
  "Parse(ddl, rdbms) never panics with an index or slice-bounds error, whatever the text and whatever the Rdbms value.",
  "every input string (as its rune sequence), every Rdbms value including unknown ones, every number of execution steps",
  "an empty or one-character quoted token reaching a slice expression could hide behind any combination of quotes, comments and nesting; tests see finitely many inputs",
  [LEX+":lex", VAL+":token", SQ+":isIdentifier", CV+":convertName", CV+":convertLiteralValue"])
p("Parse always returns",
  "Parse(ddl, rdbms) returns (with tables or with an error) for every input. [Full statement; false of the code, see the negation theorems: an unclosed '(' inside an expression, a schema-qualified REFERENCES, or a MySQL index definition never return. The positive part is proved under exactly these exclusions.]",
  "every input string and every dialect",
  "a non-returning run cannot be observed by a test, and returning on all inputs needs a termination argument over unbounded nesting",
  [VAL+":validateBracketsAux", CV+":convertTableDefinition", CV+":convertExprAux", CV+":convertCommaSeparatedColumnNames"])
p("Unclosed parenthesis in an expression hangs (negation of C02)",
  "If a CHECK or DEFAULT expression opens a parenthesis that is never closed before the end of the input, Parse does not return, in any dialect. More precisely, the syntax check fails to return exactly when some parenthesis is never closed and stands where any balanced tokens may be written (what comes before, any balanced tokens in parentheses, and some completion are a script); nothing else keeps the syntax check from returning.",
  "every token sequence after the unclosed parenthesis, any length, any nesting",
  "non-termination is not observable by a finite test",
  [VAL+":validateBracketsAux"])
p("SQLite: accepted scripts are exactly the documented grammar",
  "For SQLite, a script passes syntax checking iff its tokens (newlines removed) are derivable in the documented grammar read with maximal munch: CREATE [TEMP] TABLE statements with column definitions, column constraints each kind at most once, table constraints, table options and ';', or other CREATE statements skipped to their ';'.",
  "every token sequence of every length, both directions (soundness and completeness)",
  "the language is infinite; tests check a few members and non-members",
  [SQ, VAL])
p("PostgreSQL: accepted scripts are exactly the documented grammar",
  "For PostgreSQL, a script passes syntax checking iff its tokens (newlines removed) are derivable in the documented PostgreSQL grammar.",
  "every token sequence, both directions", "infinite language", [PG, VAL])
p("MySQL: accepted scripts are exactly the documented grammar",
  "For MySQL, a script passes syntax checking iff its tokens (newlines removed) are derivable in the documented MySQL grammar.",
  "every token sequence, both directions", "infinite language", [MY, VAL])
p("SQLite: returned tables are what the statements say",
  "For every accepted SQLite script whose REFERENCES clauses are not schema-qualified and whose column constraints are not named AUTOINCREMENT or AUTO_INCREMENT, Parse returns one Table per CREATE TABLE statement, in source order, whose schema, name, IF NOT EXISTS flag, columns (order, name, type, every constraint field) and table constraints are the ones the statement denotes.",
  "every accepted SQLite script meeting the two exclusions",
  "the result must be right for every combination and order of clauses, any number of tables, columns and nested expressions",
  [CV, SQ, TOP+":Parse"])
p("PostgreSQL: returned tables are what the statements say",
  "Same as C07 for PostgreSQL, for scripts without schema-qualified REFERENCES, without column constraints named AUTOINCREMENT or AUTO_INCREMENT, and whose table definitions do not start with an unnamed EXCLUDE constraint followed by another definition.",
  "every accepted PostgreSQL script meeting the three exclusions", "unbounded combinations of clauses",
  [CV, PG, TOP+":Parse"])
p("MySQL: returned tables are what the statements say",
  "Same as C07 for MySQL, for scripts without schema-qualified REFERENCES, without column constraints named AUTOINCREMENT, and without index definitions (INDEX, KEY, FULLTEXT, SPATIAL) in the table body.",
  "every accepted MySQL script meeting the three exclusions", "unbounded combinations of clauses",
  [CV, MY, TOP+":Parse"])
p("Round trip",
  "Writing any list of well-formed table descriptions out as a DDL script and parsing it returns exactly those tables.",
  "every list of tables: any number of tables, columns, constraints, any legal names, any balanced expressions",
  "round trip over an infinite set of schemas", [TOP+":Parse", CV, LEX])
p("Scripts concatenate",
  "If Parse(a) returns tables ta and Parse(b) returns tables tb (same dialect) then Parse(a + two newlines + b) returns ta followed by tb; if a is accepted and b is rejected by the syntax check, the concatenation is rejected near the same token.",
  "every pair of scripts", "needs that no state leaks from one statement to the next for any pair of inputs",
  [LEX+":lex", VAL+":next", CV+":convert"])
p("Non-table statements are skipped",
  "A CREATE VIEW/TRIGGER/INDEX/... statement contributes no table and does not disturb the statements around it; inside BEGIN ... END semicolons do not end it.",
  "every statement body of every length", "bodies are arbitrary token sequences", [SQ+":validateCreateOther", PG+":validateCreateOther", MY+":validateCreateOther"])
p("Every statement must end with ';'",
  "No script whose last token (ignoring newlines) is not ';' is accepted, except the empty one (the README shows the final ';' as optional for SQLite: it is not).",
  "every script, every dialect", "universal rejection claim", [SQ+":validateCreateTable", SQ+":validateCreateOther"])
p("Error line number",
  "When Parse rejects a script, ValidateError.Line is the 1-based line of the offending token. [Full statement; false: when the first token of the script is a newline the line reported by the syntax check is one too small, and a comment can hide newlines. The exact value is proved.]",
  "every rejected script", "line bookkeeping interacts with comments, quoted strings and leading newlines in unboundedly many ways",
  [VAL+":next", VAL+":init", VAL+":syntaxError", LEX+":lexEOL"])
p("Error token",
  "When Parse rejects a script, ValidateError.Near is either the token at which the rejection happened, occurring in the script, or <EOF> when the script was exhausted.",
  "every rejected script", "universal claim over all error paths of three validators", [VAL+":syntaxError", LEX+":lexError"])
p("An error is final: it does not depend on what follows",
  "If a script is rejected by the syntax check at a token, every script that has the same tokens up to and including that token is rejected with the same line and token.",
  "every rejected token sequence and every continuation", "quantifies over all continuations", [VAL, SQ, PG, MY])
p("On error no table is returned, and every error is a ValidateError with a positive line",
  "Whenever Parse returns an error the table slice is empty, the error is a ValidateError with Line >= 1 and a non-empty Near.",
  "every input, every dialect", "all error paths", [TOP+":Parse", "internal/common/errors.go"])
p("Newlines never change the outcome of the syntax check or the result",
  "Inserting or removing newline tokens anywhere between tokens changes neither acceptance, nor the tables, nor the Near of an error.",
  "every token sequence and every placement of newlines", "infinitely many layouts", [VAL+":next", VAL+":init"])
p("Layout: blanks, tabs and newlines between tokens are interchangeable",
  "Writing a token sequence with any non-empty layout of spaces, tabs and newlines between tokens (and optionally none around punctuation) yields the same tables.",
  "every sequence of words, quoted strings and punctuation, every layout", "infinitely many layouts", [LEX+":lexSpace", LEX+":lexEOL", LEX+":lexSymbol"])
p("Comments are ignored",
  "A -- comment (and # comment in MySQL) up to the end of line and a /* */ comment lex to nothing but the newlines they contain. [Full statement; false of the code: a comment that starts right after another comment ends is not recognised, '**/' does not close a comment, and '*' or '/' directly before a newline hides the newline. Proved for comments without these shapes.]",
  "every comment text, every position between tokens", "comment text is arbitrary",
  [LEX+":lexHyphen", LEX+":lexSlash", LEX+":skipComment", LEX+":skipMultiLineComment"])
p("Quoted identifiers and strings keep their content",
  "A quoted identifier or string whose content has no quote character and no newline is one token with exactly that content, and it is reported without the quotes where it is used as schema, table, column or constraint name or as default value (names in key lists keep their quotes, see C32). For content with another kind of quote inside, a character is lost.",
  "every content string", "arbitrary content", [LEX+":lexStringDoubleQuote", LEX+":lexStringSingleQuote", LEX+":lexStringBackQuote", CV+":convertName"])
p("Keywords: all-lower-case and all-upper-case are equivalent, mixed case is rejected",
  "Two texts that are the same up to letter case, in both of which every word with a meaning in the dialect is written in one case throughout, are both accepted with the same tables up to letter case, or both rejected at the same line and at the same token up to letter case, or both never return. A script starting with a mixed-case spelling of CREATE is rejected at that word.",
  "every pair of such texts, all dialects", "exponentially many spellings", [VAL+":matchToken", CV+":matchToken"])
p("Reserved words cannot be used unquoted as names",
  "For every accepted script meeting the exclusions of C07-C09 (no schema-qualified REFERENCES, no constraint named AUTOINCREMENT/AUTO_INCREMENT, no MySQL index definition, no leading unnamed EXCLUDE), every table, schema, column, constraint and referenced table name in a returned Table is either the content of a quoted identifier or an identifier matching [A-Za-z_][A-Za-z0-9_]* that is not reserved in the dialect. Outside these exclusions it is false: columns named \",\" and tables named INT are returned (negation theorems).",
  "every accepted script", "all names of all results", [SQ+":isValidName", PG+":isValidName", MY+":isValidName"])
p("Data types are normalised",
  "For every accepted script meeting the exclusions of C07-C09, in every returned column the type name is one of the dialect's type names in upper case (BIT VARYING becoming VARBIT, CHARACTER VARYING becoming VARCHAR), DigitN and DigitM are non-negative, DigitM is non-zero only if DigitN is, and for SQLite both are zero. Outside these exclusions it is false: columns of type \")\" are returned (negation theorems).",
  "every column of every result", "all results", [CV+":convertDateType", CV+":convertTypeDigit", SQ+":validateColumnType", PG+":validateColumnType", MY+":validateColumnType"])
p("A column constraint may appear at most once",
  "A column definition with the same kind of constraint twice (NULL and NOT NULL count as one kind in PostgreSQL and MySQL) is rejected.",
  "every column definition", "any number and order of constraints in between", [SQ+":validateColumnConstraintsAux", PG+":validateColumnConstraintsAux", MY+":validateColumnConstraintsAux"])
p("ParseForce tries SQLite, PostgreSQL, MySQL in this order and returns the first accepted result",
  "If some dialect accepts, and the dialects before it return an error, ParseForce returns that dialect's tables.",
  "every input", "all inputs and all three verdict combinations", [TOP+":ParseForce"])
p("ParseForce reports an error when no dialect accepts",
  "If all three dialects reject the input, ParseForce returns a non-nil error. [False: the err variable is shadowed; ParseForce returns an empty list and a nil error. The negation is proved for every input.]",
  "every input rejected by all dialects", "claim about all rejected inputs", [TOP+":ParseForce"])
p("Unknown Rdbms values are checked as SQLite, and keep quotes",
  "With an Rdbms value that is none of the three constants, acceptance equals SQLite's, and names are reported with their quotes.",
  "every input", "all inputs", [VAL+":NewValidator", CV+":isIdentifier"])
p("Unterminated quotes and comments are rejected at end of input",
  "If a quoted string or a /* comment is still open at the end of the text, Parse returns a ValidateError with Near <EOF>; it neither hangs nor returns tables.",
  "every prefix and every unterminated content", "arbitrary content", [LEX+":skipMultiLineComment", LEX+":lexStringDoubleQuote"])
p("Dialect-specific quoting",
  "A back quote outside a string or comment always makes PostgreSQL reject; '#' starts a comment in MySQL only.",
  "every position in every script", "arbitrary context", [LEX+":lexBackQuote", LEX+":lexSharp"])
p("AUTOINCREMENT in SQLite only with PRIMARY KEY",
  "In every Table returned for an SQLite (or PostgreSQL) script meeting the exclusions of C07-C08, a column with IsAutoincrement has IsPrimaryKey. If its constraint is named AUTO_INCREMENT this is false (negation theorem).",
  "every result", "all combinations of constraints", [SQ+":validateConstraintPrimaryKey", CV+":convertConstraintAux"])
p("Constraint column lists name the columns as the columns are named",
  "The columns named in PRIMARY KEY/UNIQUE/FOREIGN KEY lists are reported as they are written in the source, so that a column is reported there with the same name as in Columns exactly if its name is not quoted (for a quoted name the list keeps the quotes, a defect). For scripts meeting the exclusions of C07-C09.",
  "every accepted script", "all results", [CV+":convertCommaSeparatedColumnNames", CV+":convertName"])
p("Schema-qualified REFERENCES never return (negation part of C02)",
  "If an accepted script's last table ends in an entry whose last reported constraint is a reference to schema.table or schema.table(column) (as a column constraint or as a foreign key) and everything before it is reported faithfully in the sense of C07-C09, Parse does not return, in any dialect. In particular for `c INTEGER REFERENCES s.u`, all names, after any such script.",
  "every accepted script of this form, any number of statements and entries before, skipped statements after, all names, all dialects", "non-termination is not observable by a finite test", [CV+":convertReference", CV+":convertTableDefinition"])
p("MySQL index definitions never return (negation part of C02)",
  "If an accepted MySQL script's last table ends in an index definition (INDEX, KEY, or FULLTEXT/SPATIAL with a constraint name or without an index name) and everything before it is reported faithfully in the sense of C09, Parse does not return. In particular for `t (c INTEGER, INDEX (c))`, all names, after any such script.",
  "every accepted script of this form, any number of statements and entries before, skipped statements after, all names", "non-termination is not observable by a finite test", [MY+":validateIndexKeys", CV+":convertTableDefinition"])
p("MySQL: NOT NULL directly after CHECK is lost",
  "For a MySQL column `... CHECK (expr) NOT NULL` the returned column has IsNotNull = false, for every expression. [Negation of: a column declared NOT NULL is reported IsNotNull.]",
  "every expression and column", "arbitrary expressions", [MY+":validateConstraintCheck"])
p("Expressions are reported as the concatenation of their tokens",
  "For scripts meeting the exclusions of C07-C09, every returned CHECK and parenthesised DEFAULT value consists of the source tokens, directly after CHECK or DEFAULT, of the balanced expression concatenated without separators (adjacent commas collapsed).",
  "every balanced expression of any depth", "unbounded nesting", [CV+":convertExpr", CV+":convertExprAux", CV+":next"])
p("The lexer always terminates and produces clean tokens",
  "Lexing any text terminates; every token is a newline, one punctuation character, a quoted string of length at least 2 starting and ending with the same quote, or a non-empty word without blanks, newlines, punctuation or quotes.",
  "every text", "all texts", [LEX])
p("Validating again changes nothing (SQLite)",
  "The script made of the tokens kept by the SQLite syntax check is itself accepted and parses to the same tables.",
  "every accepted SQLite script", "all accepted scripts", [SQ, CV])
p("Parser objects carry no state between calls",
  "Calling Lex, Validate or Convert on a used object gives the same result as on a fresh one.",
  "every previous history of calls and every input", "all histories", [LEX+":init", VAL+":init", CV+":init"])
p("The choice of names does not matter",
  "Replacing words that have no meaning in the dialect (not key words, not reserved, not numbers) by other such words throughout a script does not change whether it is accepted, rejected or never returns; an accepted script gives the same tables with the names replaced (names, key columns, and the words inside expressions), a rejected one is rejected at the same line and at the replaced token.",
  "every script, every renaming, all dialects", "all scripts and all renamings", [VAL, CV])
p("Whether Parse returns is decided within linearly many steps",
  "For a text of n characters: if Parse (or ParseForce) returns, it does so with no loop running and no recursion going deeper than 2n+1 times; if it has not returned within this limit it never returns. There are at most n tokens, and the syntax check keeps at most two tokens for each token. So hanging inputs can be recognised from outside by a limit that depends only on the length.",
  "every text, every Rdbms value", "non-termination is not observable by a finite test; a bound for all texts", [TOP+":Parse", VAL, CV])
p("Nothing is invented",
  "Every part of every Table that Parse returns without error comes from the text: table, schema, column and constraint names are words of the text (or quoted words without their quotes), a type is a word in upper case (or two words, the second VARYING), a default value is a word, a key word, a quoted string or a parenthesised sequence of words, CHECK expressions are sequences of words, key and reference columns are words. The only words counted as part of the text without being in it are CREATE, PRIMARY and KEY, which the syntax check writes out. In particular the end marker <EOF> is never reported unless it is in the text. Upper case is what strings.ToUpper makes of a word, whatever it does to letters outside ASCII; for ASCII words it is the usual one. This holds without the exclusions of C07-C09.",
  "every text, every Rdbms value, whatever constraints it uses", "all texts, including those where the conversion loses its place", [CV, VAL])
p("Numeric defaults have no decimal point",
  "A DEFAULT value returned as a number is a single token of the text that strconv.ParseFloat accepts, and it has no decimal point: `DEFAULT 1.5` is never reported as a number.",
  "every text, every Rdbms value", "all texts and all numbers", [LEX+":lexSymbol", CV+":convertLiteralValue"])
p("Error messages",
  "The text of a ValidateError determines the line and the token, whatever the token contains; for an error returned by Parse it is a single line. The lexer reports only <EOF>, *, a back quote or an ideographic space.",
  "every error", "all tokens and lines", ["internal/common/errors.go:Error", LEX+":lexError"])
p("The result can be written as JSON",
  "json.Marshal succeeds on every result of Parse. False: `DEFAULT nan` and `DEFAULT -Infinity` are returned as float64 values that JSON does not have (negation theorem). It succeeds whenever the text has no word that ParseFloat reads as an infinity or NaN. On scripts within the exclusions of C07-C09 it fails exactly when some column has a default literal, unquoted, that ParseFloat reads as an infinity or NaN.",
  "every accepted script, all dialects", "all scripts", [CV+":convertLiteralValue", "internal/types/types.go"])
p("Which default values are numbers",
  "`DEFAULT x` is returned as a number exactly when x is a floating-point literal of Go without a decimal point: optional sign, then decimal digits with an optional power of ten, or 0x, hexadecimal digits and a power of two; single underscores between digits; the value below 2^1024 - 2^970; or inf, infinity, nan in any letter case. Whatever text x is.",
  "every value, every accepted script, all dialects", "infinitely many literals", [CV+":convertLiteralValue", "internal/common/utils.go:IsNumericToken"])
p("Dialects that accept the same text agree on it",
  "If two of SQLite, PostgreSQL and MySQL accept the same text, Parse returns the same tables with both, within the exclusions of C07-C09; so ParseForce, which takes the first dialect that accepts, returns what Parse returns with the right one. For MySQL two kinds of text are excluded, on which the results do differ (negation theorems): `#` outside quotes and comments of the other dialect, and a column with CHECK (...) directly followed by NOT NULL.",
  "every text accepted by two dialects", "all texts; the grammars overlap in infinitely many scripts", [SQ, PG, MY, CV, TOP+":ParseForce"])
p("Bytes in, bytes out",
  "Parse and ParseForce may be given any bytes. They do with them what they do with the text the bytes stand for in UTF-8, where every byte with which no character begins is read as U+FFFD: the result, the error and whether they return at all are those of the text, every string in the result being the UTF-8 form of the string for the text. No bytes make Parse panic. Names that are not UTF-8 are not kept: different names can be reported as the same one (negation theorem).",
  "every sequence of bytes, every Rdbms value", "all byte sequences, including ill-formed ones and multi-byte characters next to quotes", [LEX+":init", LEX+":appendToken", CV+":convertName", CV+":convertLiteralValue"])
p("Numeric defaults have the value written",
  "The float64 returned for `DEFAULT x` is the one nearest to the number x (ties to even), with its sign; numbers that are float64 values are returned exactly, in particular all integers up to 2^53; inf and nan give the infinities and NaN. For literals of at most 2000 characters, because the digits of an exponent beyond the fifth are not read. Larger integers are rounded: two scripts with different numbers can be returned with the same value (theorem C49_rounded).",
  "every accepted script with a numeric default, all dialects", "infinitely many literals; rounding of all of them", [CV+":convertLiteralValue"])
p("What the README documents is accepted",
  "Every script made of CREATE TABLE statements as documented in the README for a dialect (with names that are names in the dialect, balanced expressions, and parts that are not determined by the README read as the code reads them) is parsed without error and gives one table per statement. False of the code: negation theorems give documented texts that are rejected and one on which Parse never returns. The specification is the README's grammar, written down as it stands, without lookahead; the parts that do not work are marked in it, and for everything else the property is proved.",
  "every documented script, all dialects", "the README's grammar generates infinitely many scripts, with every combination of optional parts", [SQ, PG, MY, CV, "README.md"])
p("An error is reported at the first wrong token",
  "When the syntax check rejects a text, the tokens before the reported one can be completed to an accepted script, those up to and including it cannot; an error near <EOF> means that the whole text is the beginning of an accepted script but not one itself. The same for texts: something can be written after the text before the reported token so that it is accepted. A text on which Parse never returns is the beginning of a text that passes the syntax check.",
  "every rejected text, all dialects", "for every rejected text, a continuation exists; infinitely many rejected texts", [SQ, PG, MY, VAL+":syntaxError"])
p("The work is linear in the length of the text",
  "If Parse returns, its lexer, syntax check and conversion have together performed at most 202 * n + 281 operations on a text of n characters (calls of token, next, char, isOutOfRange, matchToken, set, appendToken and so on, and tokens passed by next); ParseForce at most three times that. So no grammar rule tries alternatives by reading the same tokens again, and nested brackets, comments and quotes cost no more than their length. Comparing and concatenating strings within an operation is not counted.",
  "every text on which Parse returns, every Rdbms value", "a bound for all texts, whatever their nesting", [LEX, SQ, PG, MY, VAL, CV])
p("The program text itself has these outcomes",
  "Run statement by statement as Go programs, the texts of Parse, ParseSQLite, ParsePostgreSQL, ParseMySQL and ParseForce, with everything they call, return for every text and every Rdbms value exactly the tables and the error that the function-by-function model returns, and run for ever exactly when the model does. No run panics. More steps never change an answer, and different results are different Go values.",
  "every text, every Rdbms value, every number of steps", "all executions of the whole program, including those that never end", [TOP, LEX, VAL, SQ, PG, MY, CV, "internal/common/utils.go", "internal/common/errors.go"])
p("Letters outside ASCII",
  "Letters outside ASCII (the code upper-cases words with strings.ToUpper, which turns the long s into S) never decide whether Parse returns, whether it accepts, or which error it reports. The tables are those one gets if such letters are left alone, up to names of types and default values in which such letters occur. For scripts meeting the exclusions of C07-C09, and for texts with such letters in comments only, the tables are the same too. Otherwise the type name can differ (negation theorem). So also for ParseForce.",
  "every text, every Rdbms value, every treatment of letters outside ASCII", "all texts in all scripts of the world", [CV+":convertDateType", CV+":convertLiteralValue", VAL+":matchToken", PG+":validateColumnConstraintsAux"])
p("The order of column constraints does not matter",
  "Writing the constraints of a column in another order changes neither whether the script is accepted nor, within the exclusions of C07-C09, the returned tables. Excluded are orders in which a constraint takes the first word of the next one: NOT after REFERENCES in SQLite, and in MySQL NOT after CHECK (...) without ENFORCED and KEY after UNIQUE; and MySQL's CONSTRAINT without a name has to stay in front of a CHECK. These exceptions are real (negation theorems): the other order is rejected, or accepted with a different result.",
  "every script, every column, every permutation of its constraints, all dialects", "all permutations of all combinations of constraints, wherever the column stands", [SQ+":validateColumnConstraints", PG+":validateColumnConstraints", MY+":validateColumnConstraints", CV+":convertConstraintAux"])
p("A table definition is the sum of its parts",
  "Let X and Y be any tokens with balanced parentheses. A script with the table definition ( X , Y ) is accepted exactly when the same script with ( X ) and the same script with ( Y ) are; within the exclusions of C07-C09 its table has the columns and constraints of the first followed by those of the second, and all other tables are as in both. So a comma separates entries wherever it stands outside parentheses, no entry influences how another one is read, and the entries may be written in any order: the columns and constraints are the same, in that order. An unnamed EXCLUDE as first entry in PostgreSQL is one of the exclusions (negation theorem).",
  "every script, every table definition, every way to split or permute its entries, all dialects", "all texts X and Y, also those that are not entries; all permutations", [SQ+":validateColumnDefinitions", PG+":validateColumnDefinitions", MY+":validateColumnDefinitions", CV+":convertTableDefinition"])
p("The tokens of every text",
  "A short list of rules (Spec/Lexical.lean) says for every text, however it is written, which tokens it is made of, or on which line and near what it is rejected: words, punctuation, quoted text with other quotes inside, the three kinds of comments, and what happens when they touch each other or are not closed. The lexer follows the rules on every text; the rules cover every text and do not contradict each other. With the grammar of C04-C06 they say exactly which texts pass the syntax check, with C07-C09 which tables they give.",
  "every text, every Rdbms value", "all texts, including those nobody writes on purpose: marks inside words, comments that touch, quotes within quotes", [LEX])
p("What Parse returns can be written out and parsed again",
  "Writing the returned tables as a script (quoted names, reported texts as they are) and parsing that script returns the same tables; so a tool may store and rewrite schemas through this package. It holds for every script, within the exclusions of C07-C09, whose tokens are those of well-formed text (no quote inside quotes, no comment mark inside a word), in which no comment mark arises when the blanks of a CHECK are left out, no DEFAULT expression contains quotes, every MySQL key names a column, and every table has an entry that is reported. The tables returned for such scripts are exactly the tables that can be written (those of C10). The conditions on expressions and keys are needed: without them the rewritten script is rejected (negation theorems).",
  "every such script, all dialects", "all scripts, in every layout and letter case; every combination of parts", [CV, LEX, SQ, PG, MY])
p("Exactly which accepted scripts are reported wrongly",
  "The exclusions of C07-C09 cannot be made smaller: if an accepted script has a reference to a table with a schema, a column constraint named like AUTOINCREMENT, an index entry (MySQL), or an unnamed EXCLUDE followed by another entry at the start of a definition (PostgreSQL), then Parse does not return the tables it denotes; no later part of the script repairs the result by chance. So a returned result is right exactly when the script has none of these. For scripts with an index entry it is required that no table is named , or ) and no column is named , (in quotes).",
  "every accepted script, all dialects", "no text may give the right tables by coincidence, whatever follows the point where the converter loses its place", [CV])
p("Before the first wrong entry the result is right",
  "Whenever Parse returns tables, they begin with the tables of all statements before the first one that C07-C09 exclude, complete and in order. The next table is that of this statement, with its schema, name and IF NOT EXISTS, and its columns and constraints begin with those of the entries before the excluded one. So what is wrong stands behind what is right, never before it or in between. In PostgreSQL a definition that starts with an unnamed EXCLUDE may have wrong columns from the start.",
  "every accepted script for which Parse returns, all dialects", "whatever follows, in whatever state the converter is", [CV])
p("What Parse returns shares no memory",
  "Go's append writes into an array that other slices may use. In the result of Parse no array is used by two slices, and all arrays are new: appending to any list of a result, or overwriting the lists of one table, changes nothing else in it; a later call changes no earlier result, and changing its result changes no earlier one. With slices in memory, whatever room append leaves and whatever is in memory before, Parse returns the same tables and errors as with slices as values, and fails to return in the same cases. So also ParseForce.",
  "every text, every Rdbms value, every contents of the memory, every growth of arrays, every sequence of two calls", "overwriting shows only for certain lengths and capacities, and after further use of the result", [CV, LEX+":appendToken", VAL+":set", TOP])
p("Which lists of a result are nil",
  "The slice of tables returned is never nil, also with an error, so it is written as [] in JSON. In every table the columns and the four lists of constraints are nil exactly when they have no elements (null in JSON), and the list of column names of a primary key, unique or foreign key constraint is never nil. The same is true of ParseForce.",
  "every text, every Rdbms value", "all combinations of parts, also when the converter has lost its place", [CV])
p("The JSON of a result says exactly the tables",
  "json.Marshal of a result of Parse gives a text that is JSON (RFC 8259) whatever characters the names, expressions and default values contain, and a reader of JSON gets from it exactly the tables, with the names of the fields in the README: lists that are null or [], numbers, strings with every character as it was. Two results with the same text are the same tables (but for how a number after DEFAULT was written). It fails exactly when a default value is infinite or NaN. So also for ParseForce. How a float64 is written is a parameter, assumed to be a JSON number and different for different values.",
  "every text, every Rdbms value, all characters", "names and literals can contain any characters, also those that JSON has to escape", ["internal/types/types.go", CV, TOP])
p("What a constraint named AUTOINCREMENT is taken for",
  "One of the exclusions of C07-C09 loses nothing else: for an accepted script without references to tables with a schema, without index definitions and without an unnamed EXCLUDE followed by another entry at the start of a definition, Parse returns the tables as written, but a column whose constraint is named AUTOINCREMENT or AUTO_INCREMENT (in upper or lower case, without quotes) is reported as AUTOINCREMENT and its constraint without a name. Everything else of that column, all other columns, constraints and tables are right, and the result is the written one exactly when no column constraint has such a name. In any accepted script for which Parse returns, the same holds of all statements and entries before the first one with such a reference, index definition or EXCLUDE. So a wrong name costs this name and one flag, and never makes Parse run on.",
  "every such script, all dialects", "all scripts with any number of such constraints among any others", [CV+":convertConstraint", CV+":convertConstraintAux"])
p("Parse may be called from several goroutines at once",
  "Any number of calls of Parse and ParseForce may run at the same time, in any order of their single operations on memory, while the rest of the program does what it likes to memory that no running call owns (also to results already returned): when a call returns, the tables and error are those it returns when made alone; a call that returns alone cannot end in another way among others. No two calls ever use the same array, so there is no data race, and none uses an array made before; no call touches what another one has returned. No call waits for another.",
  "every number of calls, all texts and Rdbms values, every interleaving, every contents of the memory, every growth of arrays", "a race shows only in rare schedules; the number of schedules is exponential", [TOP, CV, LEX+":appendToken", VAL+":set"])
p("Exactly which error is reported",
  "For every text Parse returns an error exactly if the text has one in this sense, and then that one: the lexical rules of C57 reject it, near what and on which line they say; or some token is the first one with which the text can no longer be completed to a script, which is reported with 1 plus the newlines before it; or the text ends too early, which is reported as <EOF> on the last line. A newline as first token is not counted. No text has two errors. Every text has an error, or an open parenthesis whose contents are not looked at (then Parse never returns), or is a script, and only one of the three. After an accepted script and two newlines the error of a text is reported with the same token and further down by the lines of that script plus two.",
  "every text, every Rdbms value", "the error of every text, with its line, both ways; all pairs of texts", [SQ, PG, MY, VAL+":syntaxError", LEX])
if __name__ == "__main__":
    for x in P: print(json.dumps(x, ensure_ascii=False))
