{"id": "C01", "title": "Parse never panics", "statement": "Parse(ddl, rdbms) never panics with an index or slice-bounds error, whatever the text and whatever the Rdbms value.", "quantifier": "every input string (as its rune sequence), every Rdbms value including unknown ones, every number of execution steps", "why_tests_cant": "an empty or one-character quoted token reaching a slice expression could hide behind any combination of quotes, comments and nesting; tests see finitely many inputs", "anchors": ["internal/lexer/lexer.go:lex", "internal/validator/validator.go:token", "internal/validator/validator_sqlite.go:isIdentifier", "internal/converter/converter.go:convertName", "internal/converter/converter.go:convertLiteralValue"]}
{"id": "C02", "title": "Parse always returns", "statement": "Parse(ddl, rdbms) returns (with tables or with an error) for every input. [Full statement; false of the code, see the negation theorems: an unclosed '(' inside an expression, a schema-qualified REFERENCES, or a MySQL index definition never return. The positive part is proved under exactly these exclusions.]", "quantifier": "every input string and every dialect", "why_tests_cant": "a non-returning run cannot be observed by a test, and returning on all inputs needs a termination argument over unbounded nesting", "anchors": ["internal/validator/validator.go:validateBracketsAux", "internal/converter/converter.go:convertTableDefinition", "internal/converter/converter.go:convertExprAux", "internal/converter/converter.go:convertCommaSeparatedColumnNames"]}
{"id": "C03", "title": "Unclosed parenthesis in an expression hangs (negation of C02)", "statement": "If a CHECK or DEFAULT expression opens a parenthesis that is never closed before the end of the input, Parse does not return, in any dialect. More precisely, the syntax check fails to return exactly when some parenthesis is never closed and stands where any balanced tokens may be written (what comes before, any balanced tokens in parentheses, and some completion are a script); nothing else keeps the syntax check from returning.", "quantifier": "every token sequence after the unclosed parenthesis, any length, any nesting", "why_tests_cant": "non-termination is not observable by a finite test", "anchors": ["internal/validator/validator.go:validateBracketsAux"]}
{"id": "C04", "title": "SQLite: accepted scripts are exactly the documented grammar", "statement": "For SQLite, a script passes syntax checking iff its tokens (newlines removed) are derivable in the documented grammar read with maximal munch: CREATE [TEMP] TABLE statements with column definitions, column constraints each kind at most once, table constraints, table options and ';', or other CREATE statements skipped to their ';'.", "quantifier": "every token sequence of every length, both directions (soundness and completeness)", "why_tests_cant": "the language is infinite; tests check a few members and non-members", "anchors": ["internal/validator/validator_sqlite.go", "internal/validator/validator.go"]}
{"id": "C05", "title": "PostgreSQL: accepted scripts are exactly the documented grammar", "statement": "For PostgreSQL, a script passes syntax checking iff its tokens (newlines removed) are derivable in the documented PostgreSQL grammar.", "quantifier": "every token sequence, both directions", "why_tests_cant": "infinite language", "anchors": ["internal/validator/validator_postgresql.go", "internal/validator/validator.go"]}
{"id": "C06", "title": "MySQL: accepted scripts are exactly the documented grammar", "statement": "For MySQL, a script passes syntax checking iff its tokens (newlines removed) are derivable in the documented MySQL grammar.", "quantifier": "every token sequence, both directions", "why_tests_cant": "infinite language", "anchors": ["internal/validator/validator_mysql.go", "internal/validator/validator.go"]}
{"id": "C07", "title": "SQLite: returned tables are what the statements say", "statement": "For every accepted SQLite script whose REFERENCES clauses are not schema-qualified and whose column constraints are not named AUTOINCREMENT or AUTO_INCREMENT, Parse returns one Table per CREATE TABLE statement, in source order, whose schema, name, IF NOT EXISTS flag, columns (order, name, type, every constraint field) and table constraints are the ones the statement denotes.", "quantifier": "every accepted SQLite script meeting the two exclusions", "why_tests_cant": "the result must be right for every combination and order of clauses, any number of tables, columns and nested expressions", "anchors": ["internal/converter/converter.go", "internal/validator/validator_sqlite.go", "ddlparse.go:Parse"]}
{"id": "C08", "title": "PostgreSQL: returned tables are what the statements say", "statement": "Same as C07 for PostgreSQL, for scripts without schema-qualified REFERENCES, without column constraints named AUTOINCREMENT or AUTO_INCREMENT, and whose table definitions do not start with an unnamed EXCLUDE constraint followed by another definition.", "quantifier": "every accepted PostgreSQL script meeting the three exclusions", "why_tests_cant": "unbounded combinations of clauses", "anchors": ["internal/converter/converter.go", "internal/validator/validator_postgresql.go", "ddlparse.go:Parse"]}
{"id": "C09", "title": "MySQL: returned tables are what the statements say", "statement": "Same as C07 for MySQL, for scripts without schema-qualified REFERENCES, without column constraints named AUTOINCREMENT, and without index definitions (INDEX, KEY, FULLTEXT, SPATIAL) in the table body.", "quantifier": "every accepted MySQL script meeting the three exclusions", "why_tests_cant": "unbounded combinations of clauses", "anchors": ["internal/converter/converter.go", "internal/validator/validator_mysql.go", "ddlparse.go:Parse"]}
{"id": "C10", "title": "Round trip", "statement": "Writing any list of well-formed table descriptions out as a DDL script and parsing it returns exactly those tables.", "quantifier": "every list of tables: any number of tables, columns, constraints, any legal names, any balanced expressions", "why_tests_cant": "round trip over an infinite set of schemas", "anchors": ["ddlparse.go:Parse", "internal/converter/converter.go", "internal/lexer/lexer.go"]}
{"id": "C11", "title": "Scripts concatenate", "statement": "If Parse(a) returns tables ta and Parse(b) returns tables tb (same dialect) then Parse(a + two newlines + b) returns ta followed by tb; if a is accepted and b is rejected by the syntax check, the concatenation is rejected near the same token.", "quantifier": "every pair of scripts", "why_tests_cant": "needs that no state leaks from one statement to the next for any pair of inputs", "anchors": ["internal/lexer/lexer.go:lex", "internal/validator/validator.go:next", "internal/converter/converter.go:convert"]}
{"id": "C12", "title": "Non-table statements are skipped", "statement": "A CREATE VIEW/TRIGGER/INDEX/... statement contributes no table and does not disturb the statements around it; inside BEGIN ... END semicolons do not end it.", "quantifier": "every statement body of every length", "why_tests_cant": "bodies are arbitrary token sequences", "anchors": ["internal/validator/validator_sqlite.go:validateCreateOther", "internal/validator/validator_postgresql.go:validateCreateOther", "internal/validator/validator_mysql.go:validateCreateOther"]}
{"id": "C13", "title": "Every statement must end with ';'", "statement": "No script whose last token (ignoring newlines) is not ';' is accepted, except the empty one (the README shows the final ';' as optional for SQLite: it is not).", "quantifier": "every script, every dialect", "why_tests_cant": "universal rejection claim", "anchors": ["internal/validator/validator_sqlite.go:validateCreateTable", "internal/validator/validator_sqlite.go:validateCreateOther"]}
{"id": "C14", "title": "Error line number", "statement": "When Parse rejects a script, ValidateError.Line is the 1-based line of the offending token. [Full statement; false: when the first token of the script is a newline the line reported by the syntax check is one too small, and a comment can hide newlines. The exact value is proved.]", "quantifier": "every rejected script", "why_tests_cant": "line bookkeeping interacts with comments, quoted strings and leading newlines in unboundedly many ways", "anchors": ["internal/validator/validator.go:next", "internal/validator/validator.go:init", "internal/validator/validator.go:syntaxError", "internal/lexer/lexer.go:lexEOL"]}
{"id": "C15", "title": "Error token", "statement": "When Parse rejects a script, ValidateError.Near is either the token at which the rejection happened, occurring in the script, or <EOF> when the script was exhausted.", "quantifier": "every rejected script", "why_tests_cant": "universal claim over all error paths of three validators", "anchors": ["internal/validator/validator.go:syntaxError", "internal/lexer/lexer.go:lexError"]}
{"id": "C16", "title": "An error is final: it does not depend on what follows", "statement": "If a script is rejected by the syntax check at a token, every script that has the same tokens up to and including that token is rejected with the same line and token.", "quantifier": "every rejected token sequence and every continuation", "why_tests_cant": "quantifies over all continuations", "anchors": ["internal/validator/validator.go", "internal/validator/validator_sqlite.go", "internal/validator/validator_postgresql.go", "internal/validator/validator_mysql.go"]}
{"id": "C17", "title": "On error no table is returned, and every error is a ValidateError with a positive line", "statement": "Whenever Parse returns an error the table slice is empty, the error is a ValidateError with Line >= 1 and a non-empty Near.", "quantifier": "every input, every dialect", "why_tests_cant": "all error paths", "anchors": ["ddlparse.go:Parse", "internal/common/errors.go"]}
{"id": "C18", "title": "Newlines never change the outcome of the syntax check or the result", "statement": "Inserting or removing newline tokens anywhere between tokens changes neither acceptance, nor the tables, nor the Near of an error.", "quantifier": "every token sequence and every placement of newlines", "why_tests_cant": "infinitely many layouts", "anchors": ["internal/validator/validator.go:next", "internal/validator/validator.go:init"]}
{"id": "C19", "title": "Layout: blanks, tabs and newlines between tokens are interchangeable", "statement": "Writing a token sequence with any non-empty layout of spaces, tabs and newlines between tokens (and optionally none around punctuation) yields the same tables.", "quantifier": "every sequence of words, quoted strings and punctuation, every layout", "why_tests_cant": "infinitely many layouts", "anchors": ["internal/lexer/lexer.go:lexSpace", "internal/lexer/lexer.go:lexEOL", "internal/lexer/lexer.go:lexSymbol"]}
{"id": "C20", "title": "Comments are ignored", "statement": "A -- comment (and # comment in MySQL) up to the end of line and a /* */ comment lex to nothing but the newlines they contain. [Full statement; false of the code: a comment that starts right after another comment ends is not recognised, '**/' does not close a comment, and '*' or '/' directly before a newline hides the newline. Proved for comments without these shapes.]", "quantifier": "every comment text, every position between tokens", "why_tests_cant": "comment text is arbitrary", "anchors": ["internal/lexer/lexer.go:lexHyphen", "internal/lexer/lexer.go:lexSlash", "internal/lexer/lexer.go:skipComment", "internal/lexer/lexer.go:skipMultiLineComment"]}
{"id": "C21", "title": "Quoted identifiers and strings keep their content", "statement": "A quoted identifier or string whose content has no quote character and no newline is one token with exactly that content, and it is reported without the quotes where it is used as schema, table, column or constraint name or as default value (names in key lists keep their quotes, see C32). For content with another kind of quote inside, a character is lost.", "quantifier": "every content string", "why_tests_cant": "arbitrary content", "anchors": ["internal/lexer/lexer.go:lexStringDoubleQuote", "internal/lexer/lexer.go:lexStringSingleQuote", "internal/lexer/lexer.go:lexStringBackQuote", "internal/converter/converter.go:convertName"]}
{"id": "C22", "title": "Keywords: all-lower-case and all-upper-case are equivalent, mixed case is rejected", "statement": "Two texts that are the same up to letter case, in both of which every word with a meaning in the dialect is written in one case throughout, are both accepted with the same tables up to letter case, or both rejected at the same line and at the same token up to letter case, or both never return. A script starting with a mixed-case spelling of CREATE is rejected at that word.", "quantifier": "every pair of such texts, all dialects", "why_tests_cant": "exponentially many spellings", "anchors": ["internal/validator/validator.go:matchToken", "internal/converter/converter.go:matchToken"]}
{"id": "C23", "title": "Reserved words cannot be used unquoted as names", "statement": "For every accepted script meeting the exclusions of C07-C09 (no schema-qualified REFERENCES, no constraint named AUTOINCREMENT/AUTO_INCREMENT, no MySQL index definition, no leading unnamed EXCLUDE), every table, schema, column, constraint and referenced table name in a returned Table is either the content of a quoted identifier or an identifier matching [A-Za-z_][A-Za-z0-9_]* that is not reserved in the dialect. Outside these exclusions it is false: columns named \",\" and tables named INT are returned (negation theorems).", "quantifier": "every accepted script", "why_tests_cant": "all names of all results", "anchors": ["internal/validator/validator_sqlite.go:isValidName", "internal/validator/validator_postgresql.go:isValidName", "internal/validator/validator_mysql.go:isValidName"]}
{"id": "C24", "title": "Data types are normalised", "statement": "For every accepted script meeting the exclusions of C07-C09, in every returned column the type name is one of the dialect's type names in upper case (BIT VARYING becoming VARBIT, CHARACTER VARYING becoming VARCHAR), DigitN and DigitM are non-negative, DigitM is non-zero only if DigitN is, and for SQLite both are zero. Outside these exclusions it is false: columns of type \")\" are returned (negation theorems).", "quantifier": "every column of every result", "why_tests_cant": "all results", "anchors": ["internal/converter/converter.go:convertDateType", "internal/converter/converter.go:convertTypeDigit", "internal/validator/validator_sqlite.go:validateColumnType", "internal/validator/validator_postgresql.go:validateColumnType", "internal/validator/validator_mysql.go:validateColumnType"]}
{"id": "C25", "title": "A column constraint may appear at most once", "statement": "A column definition with the same kind of constraint twice (NULL and NOT NULL count as one kind in PostgreSQL and MySQL) is rejected.", "quantifier": "every column definition", "why_tests_cant": "any number and order of constraints in between", "anchors": ["internal/validator/validator_sqlite.go:validateColumnConstraintsAux", "internal/validator/validator_postgresql.go:validateColumnConstraintsAux", "internal/validator/validator_mysql.go:validateColumnConstraintsAux"]}
{"id": "C26", "title": "ParseForce tries SQLite, PostgreSQL, MySQL in this order and returns the first accepted result", "statement": "If some dialect accepts, and the dialects before it return an error, ParseForce returns that dialect's tables.", "quantifier": "every input", "why_tests_cant": "all inputs and all three verdict combinations", "anchors": ["ddlparse.go:ParseForce"]}
{"id": "C27", "title": "ParseForce reports an error when no dialect accepts", "statement": "If all three dialects reject the input, ParseForce returns a non-nil error. [False: the err variable is shadowed; ParseForce returns an empty list and a nil error. The negation is proved for every input.]", "quantifier": "every input rejected by all dialects", "why_tests_cant": "claim about all rejected inputs", "anchors": ["ddlparse.go:ParseForce"]}
{"id": "C28", "title": "Unknown Rdbms values are checked as SQLite, and keep quotes", "statement": "With an Rdbms value that is none of the three constants, acceptance equals SQLite's, and names are reported with their quotes.", "quantifier": "every input", "why_tests_cant": "all inputs", "anchors": ["internal/validator/validator.go:NewValidator", "internal/converter/converter.go:isIdentifier"]}
{"id": "C29", "title": "Unterminated quotes and comments are rejected at end of input", "statement": "If a quoted string or a /* comment is still open at the end of the text, Parse returns a ValidateError with Near <EOF>; it neither hangs nor returns tables.", "quantifier": "every prefix and every unterminated content", "why_tests_cant": "arbitrary content", "anchors": ["internal/lexer/lexer.go:skipMultiLineComment", "internal/lexer/lexer.go:lexStringDoubleQuote"]}
{"id": "C30", "title": "Dialect-specific quoting", "statement": "A back quote outside a string or comment always makes PostgreSQL reject; '#' starts a comment in MySQL only.", "quantifier": "every position in every script", "why_tests_cant": "arbitrary context", "anchors": ["internal/lexer/lexer.go:lexBackQuote", "internal/lexer/lexer.go:lexSharp"]}
{"id": "C31", "title": "AUTOINCREMENT in SQLite only with PRIMARY KEY", "statement": "In every Table returned for an SQLite (or PostgreSQL) script meeting the exclusions of C07-C08, a column with IsAutoincrement has IsPrimaryKey. If its constraint is named AUTO_INCREMENT this is false (negation theorem).", "quantifier": "every result", "why_tests_cant": "all combinations of constraints", "anchors": ["internal/validator/validator_sqlite.go:validateConstraintPrimaryKey", "internal/converter/converter.go:convertConstraintAux"]}
{"id": "C32", "title": "Constraint column lists name the columns as the columns are named", "statement": "The columns named in PRIMARY KEY/UNIQUE/FOREIGN KEY lists are reported as they are written in the source, so that a column is reported there with the same name as in Columns exactly if its name is not quoted (for a quoted name the list keeps the quotes, a defect). For scripts meeting the exclusions of C07-C09.", "quantifier": "every accepted script", "why_tests_cant": "all results", "anchors": ["internal/converter/converter.go:convertCommaSeparatedColumnNames", "internal/converter/converter.go:convertName"]}
{"id": "C33", "title": "Schema-qualified REFERENCES never return (negation part of C02)", "statement": "If an accepted script's last table ends in an entry whose last reported constraint is a reference to schema.table or schema.table(column) (as a column constraint or as a foreign key) and everything before it is reported faithfully in the sense of C07-C09, Parse does not return, in any dialect. In particular for `c INTEGER REFERENCES s.u`, all names, after any such script.", "quantifier": "every accepted script of this form, any number of statements and entries before, skipped statements after, all names, all dialects", "why_tests_cant": "non-termination is not observable by a finite test", "anchors": ["internal/converter/converter.go:convertReference", "internal/converter/converter.go:convertTableDefinition"]}
{"id": "C34", "title": "MySQL index definitions never return (negation part of C02)", "statement": "If an accepted MySQL script's last table ends in an index definition (INDEX, KEY, or FULLTEXT/SPATIAL with a constraint name or without an index name) and everything before it is reported faithfully in the sense of C09, Parse does not return. In particular for `t (c INTEGER, INDEX (c))`, all names, after any such script.", "quantifier": "every accepted script of this form, any number of statements and entries before, skipped statements after, all names", "why_tests_cant": "non-termination is not observable by a finite test", "anchors": ["internal/validator/validator_mysql.go:validateIndexKeys", "internal/converter/converter.go:convertTableDefinition"]}
{"id": "C35", "title": "MySQL: NOT NULL directly after CHECK is lost", "statement": "For a MySQL column `... CHECK (expr) NOT NULL` the returned column has IsNotNull = false, for every expression. [Negation of: a column declared NOT NULL is reported IsNotNull.]", "quantifier": "every expression and column", "why_tests_cant": "arbitrary expressions", "anchors": ["internal/validator/validator_mysql.go:validateConstraintCheck"]}
{"id": "C36", "title": "Expressions are reported as the concatenation of their tokens", "statement": "For scripts meeting the exclusions of C07-C09, every returned CHECK and parenthesised DEFAULT value consists of the source tokens, directly after CHECK or DEFAULT, of the balanced expression concatenated without separators (adjacent commas collapsed).", "quantifier": "every balanced expression of any depth", "why_tests_cant": "unbounded nesting", "anchors": ["internal/converter/converter.go:convertExpr", "internal/converter/converter.go:convertExprAux", "internal/converter/converter.go:next"]}
{"id": "C37", "title": "The lexer always terminates and produces clean tokens", "statement": "Lexing any text terminates; every token is a newline, one punctuation character, a quoted string of length at least 2 starting and ending with the same quote, or a non-empty word without blanks, newlines, punctuation or quotes.", "quantifier": "every text", "why_tests_cant": "all texts", "anchors": ["internal/lexer/lexer.go"]}
{"id": "C38", "title": "Validating again changes nothing (SQLite)", "statement": "The script made of the tokens kept by the SQLite syntax check is itself accepted and parses to the same tables.", "quantifier": "every accepted SQLite script", "why_tests_cant": "all accepted scripts", "anchors": ["internal/validator/validator_sqlite.go", "internal/converter/converter.go"]}
{"id": "C39", "title": "Parser objects carry no state between calls", "statement": "Calling Lex, Validate or Convert on a used object gives the same result as on a fresh one.", "quantifier": "every previous history of calls and every input", "why_tests_cant": "all histories", "anchors": ["internal/lexer/lexer.go:init", "internal/validator/validator.go:init", "internal/converter/converter.go:init"]}
{"id": "C40", "title": "The choice of names does not matter", "statement": "Replacing words that have no meaning in the dialect (not key words, not reserved, not numbers) by other such words throughout a script does not change whether it is accepted, rejected or never returns; an accepted script gives the same tables with the names replaced (names, key columns, and the words inside expressions), a rejected one is rejected at the same line and at the replaced token.", "quantifier": "every script, every renaming, all dialects", "why_tests_cant": "all scripts and all renamings", "anchors": ["internal/validator/validator.go", "internal/converter/converter.go"]}
{"id": "C41", "title": "Whether Parse returns is decided within linearly many steps", "statement": "For a text of n characters: if Parse (or ParseForce) returns, it does so with no loop running and no recursion going deeper than 2n+1 times; if it has not returned within this limit it never returns. There are at most n tokens, and the syntax check keeps at most two tokens for each token. So hanging inputs can be recognised from outside by a limit that depends only on the length.", "quantifier": "every text, every Rdbms value", "why_tests_cant": "non-termination is not observable by a finite test; a bound for all texts", "anchors": ["ddlparse.go:Parse", "internal/validator/validator.go", "internal/converter/converter.go"]}
{"id": "C42", "title": "Nothing is invented", "statement": "Every part of every Table that Parse returns without error comes from the text: table, schema, column and constraint names are words of the text (or quoted words without their quotes), a type is a word in upper case (or two words, the second VARYING), a default value is a word, a key word, a quoted string or a parenthesised sequence of words, CHECK expressions are sequences of words, key and reference columns are words. The only words counted as part of the text without being in it are CREATE, PRIMARY and KEY, which the syntax check writes out. In particular the end marker <EOF> is never reported unless it is in the text. Upper case is what strings.ToUpper makes of a word, whatever it does to letters outside ASCII; for ASCII words it is the usual one. This holds without the exclusions of C07-C09.", "quantifier": "every text, every Rdbms value, whatever constraints it uses", "why_tests_cant": "all texts, including those where the conversion loses its place", "anchors": ["internal/converter/converter.go", "internal/validator/validator.go"]}
{"id": "C43", "title": "Numeric defaults have no decimal point", "statement": "A DEFAULT value returned as a number is a single token of the text that strconv.ParseFloat accepts, and it has no decimal point: `DEFAULT 1.5` is never reported as a number.", "quantifier": "every text, every Rdbms value", "why_tests_cant": "all texts and all numbers", "anchors": ["internal/lexer/lexer.go:lexSymbol", "internal/converter/converter.go:convertLiteralValue"]}
{"id": "C44", "title": "Error messages", "statement": "The text of a ValidateError determines the line and the token, whatever the token contains; for an error returned by Parse it is a single line. The lexer reports only <EOF>, *, a back quote or an ideographic space.", "quantifier": "every error", "why_tests_cant": "all tokens and lines", "anchors": ["internal/common/errors.go:Error", "internal/lexer/lexer.go:lexError"]}
{"id": "C45", "title": "The result can be written as JSON", "statement": "json.Marshal succeeds on every result of Parse. False: `DEFAULT nan` and `DEFAULT -Infinity` are returned as float64 values that JSON does not have (negation theorem). It succeeds whenever the text has no word that ParseFloat reads as an infinity or NaN. On scripts within the exclusions of C07-C09 it fails exactly when some column has a default literal, unquoted, that ParseFloat reads as an infinity or NaN.", "quantifier": "every accepted script, all dialects", "why_tests_cant": "all scripts", "anchors": ["internal/converter/converter.go:convertLiteralValue", "internal/types/types.go"]}
{"id": "C46", "title": "Which default values are numbers", "statement": "`DEFAULT x` is returned as a number exactly when x is a floating-point literal of Go without a decimal point: optional sign, then decimal digits with an optional power of ten, or 0x, hexadecimal digits and a power of two; single underscores between digits; the value below 2^1024 - 2^970; or inf, infinity, nan in any letter case. Whatever text x is.", "quantifier": "every value, every accepted script, all dialects", "why_tests_cant": "infinitely many literals", "anchors": ["internal/converter/converter.go:convertLiteralValue", "internal/common/utils.go:IsNumericToken"]}
{"id": "C47", "title": "Dialects that accept the same text agree on it", "statement": "If two of SQLite, PostgreSQL and MySQL accept the same text, Parse returns the same tables with both, within the exclusions of C07-C09; so ParseForce, which takes the first dialect that accepts, returns what Parse returns with the right one. For MySQL two kinds of text are excluded, on which the results do differ (negation theorems): `#` outside quotes and comments of the other dialect, and a column with CHECK (...) directly followed by NOT NULL.", "quantifier": "every text accepted by two dialects", "why_tests_cant": "all texts; the grammars overlap in infinitely many scripts", "anchors": ["internal/validator/validator_sqlite.go", "internal/validator/validator_postgresql.go", "internal/validator/validator_mysql.go", "internal/converter/converter.go", "ddlparse.go:ParseForce"]}
{"id": "C48", "title": "Bytes in, bytes out", "statement": "Parse and ParseForce may be given any bytes. They do with them what they do with the text the bytes stand for in UTF-8, where every byte with which no character begins is read as U+FFFD: the result, the error and whether they return at all are those of the text, every string in the result being the UTF-8 form of the string for the text. No bytes make Parse panic. Names that are not UTF-8 are not kept: different names can be reported as the same one (negation theorem).", "quantifier": "every sequence of bytes, every Rdbms value", "why_tests_cant": "all byte sequences, including ill-formed ones and multi-byte characters next to quotes", "anchors": ["internal/lexer/lexer.go:init", "internal/lexer/lexer.go:appendToken", "internal/converter/converter.go:convertName", "internal/converter/converter.go:convertLiteralValue"]}
{"id": "C49", "title": "Numeric defaults have the value written", "statement": "The float64 returned for `DEFAULT x` is the one nearest to the number x (ties to even), with its sign; numbers that are float64 values are returned exactly, in particular all integers up to 2^53; inf and nan give the infinities and NaN. For literals of at most 2000 characters, because the digits of an exponent beyond the fifth are not read. Larger integers are rounded: two scripts with different numbers can be returned with the same value (theorem C49_rounded).", "quantifier": "every accepted script with a numeric default, all dialects", "why_tests_cant": "infinitely many literals; rounding of all of them", "anchors": ["internal/converter/converter.go:convertLiteralValue"]}
{"id": "C50", "title": "What the README documents is accepted", "statement": "Every script made of CREATE TABLE statements as documented in the README for a dialect (with names that are names in the dialect, balanced expressions, and parts that are not determined by the README read as the code reads them) is parsed without error and gives one table per statement. False of the code: negation theorems give documented texts that are rejected and one on which Parse never returns. The specification is the README's grammar, written down as it stands, without lookahead; the parts that do not work are marked in it, and for everything else the property is proved.", "quantifier": "every documented script, all dialects", "why_tests_cant": "the README's grammar generates infinitely many scripts, with every combination of optional parts", "anchors": ["internal/validator/validator_sqlite.go", "internal/validator/validator_postgresql.go", "internal/validator/validator_mysql.go", "internal/converter/converter.go", "README.md"]}
{"id": "C51", "title": "An error is reported at the first wrong token", "statement": "When the syntax check rejects a text, the tokens before the reported one can be completed to an accepted script, those up to and including it cannot; an error near <EOF> means that the whole text is the beginning of an accepted script but not one itself. The same for texts: something can be written after the text before the reported token so that it is accepted. A text on which Parse never returns is the beginning of a text that passes the syntax check.", "quantifier": "every rejected text, all dialects", "why_tests_cant": "for every rejected text, a continuation exists; infinitely many rejected texts", "anchors": ["internal/validator/validator_sqlite.go", "internal/validator/validator_postgresql.go", "internal/validator/validator_mysql.go", "internal/validator/validator.go:syntaxError"]}
{"id": "C52", "title": "The work is linear in the length of the text", "statement": "If Parse returns, its lexer, syntax check and conversion have together performed at most 202 * n + 281 operations on a text of n characters (calls of token, next, char, isOutOfRange, matchToken, set, appendToken and so on, and tokens passed by next); ParseForce at most three times that. So no grammar rule tries alternatives by reading the same tokens again, and nested brackets, comments and quotes cost no more than their length. Comparing and concatenating strings within an operation is not counted.", "quantifier": "every text on which Parse returns, every Rdbms value", "why_tests_cant": "a bound for all texts, whatever their nesting", "anchors": ["internal/lexer/lexer.go", "internal/validator/validator_sqlite.go", "internal/validator/validator_postgresql.go", "internal/validator/validator_mysql.go", "internal/validator/validator.go", "internal/converter/converter.go"]}
{"id": "C53", "title": "The program text itself has these outcomes", "statement": "Run statement by statement as Go programs, the texts of Parse, ParseSQLite, ParsePostgreSQL, ParseMySQL and ParseForce, with everything they call, return for every text and every Rdbms value exactly the tables and the error that the function-by-function model returns, and run for ever exactly when the model does. No run panics. More steps never change an answer, and different results are different Go values.", "quantifier": "every text, every Rdbms value, every number of steps", "why_tests_cant": "all executions of the whole program, including those that never end", "anchors": ["ddlparse.go", "internal/lexer/lexer.go", "internal/validator/validator.go", "internal/validator/validator_sqlite.go", "internal/validator/validator_postgresql.go", "internal/validator/validator_mysql.go", "internal/converter/converter.go", "internal/common/utils.go", "internal/common/errors.go"]}
{"id": "C54", "title": "Letters outside ASCII", "statement": "Letters outside ASCII (the code upper-cases words with strings.ToUpper, which turns the long s into S) never decide whether Parse returns, whether it accepts, or which error it reports. The tables are those one gets if such letters are left alone, up to names of types and default values in which such letters occur. For scripts meeting the exclusions of C07-C09, and for texts with such letters in comments only, the tables are the same too. Otherwise the type name can differ (negation theorem). So also for ParseForce.", "quantifier": "every text, every Rdbms value, every treatment of letters outside ASCII", "why_tests_cant": "all texts in all scripts of the world", "anchors": ["internal/converter/converter.go:convertDateType", "internal/converter/converter.go:convertLiteralValue", "internal/validator/validator.go:matchToken", "internal/validator/validator_postgresql.go:validateColumnConstraintsAux"]}
{"id": "C55", "title": "The order of column constraints does not matter", "statement": "Writing the constraints of a column in another order changes neither whether the script is accepted nor, within the exclusions of C07-C09, the returned tables. Excluded are orders in which a constraint takes the first word of the next one: NOT after REFERENCES in SQLite, and in MySQL NOT after CHECK (...) without ENFORCED and KEY after UNIQUE; and MySQL's CONSTRAINT without a name has to stay in front of a CHECK. These exceptions are real (negation theorems): the other order is rejected, or accepted with a different result.", "quantifier": "every script, every column, every permutation of its constraints, all dialects", "why_tests_cant": "all permutations of all combinations of constraints, wherever the column stands", "anchors": ["internal/validator/validator_sqlite.go:validateColumnConstraints", "internal/validator/validator_postgresql.go:validateColumnConstraints", "internal/validator/validator_mysql.go:validateColumnConstraints", "internal/converter/converter.go:convertConstraintAux"]}
{"id": "C56", "title": "A table definition is the sum of its parts", "statement": "Let X and Y be any tokens with balanced parentheses. A script with the table definition ( X , Y ) is accepted exactly when the same script with ( X ) and the same script with ( Y ) are; within the exclusions of C07-C09 its table has the columns and constraints of the first followed by those of the second, and all other tables are as in both. So a comma separates entries wherever it stands outside parentheses, no entry influences how another one is read, and the entries may be written in any order: the columns and constraints are the same, in that order. An unnamed EXCLUDE as first entry in PostgreSQL is one of the exclusions (negation theorem).", "quantifier": "every script, every table definition, every way to split or permute its entries, all dialects", "why_tests_cant": "all texts X and Y, also those that are not entries; all permutations", "anchors": ["internal/validator/validator_sqlite.go:validateColumnDefinitions", "internal/validator/validator_postgresql.go:validateColumnDefinitions", "internal/validator/validator_mysql.go:validateColumnDefinitions", "internal/converter/converter.go:convertTableDefinition"]}
{"id": "C57", "title": "The tokens of every text", "statement": "A short list of rules (Spec/Lexical.lean) says for every text, however it is written, which tokens it is made of, or on which line and near what it is rejected: words, punctuation, quoted text with other quotes inside, the three kinds of comments, and what happens when they touch each other or are not closed. The lexer follows the rules on every text; the rules cover every text and do not contradict each other. With the grammar of C04-C06 they say exactly which texts pass the syntax check, with C07-C09 which tables they give.", "quantifier": "every text, every Rdbms value", "why_tests_cant": "all texts, including those nobody writes on purpose: marks inside words, comments that touch, quotes within quotes", "anchors": ["internal/lexer/lexer.go"]}
{"id": "C58", "title": "What Parse returns can be written out and parsed again", "statement": "Writing the returned tables as a script (quoted names, reported texts as they are) and parsing that script returns the same tables; so a tool may store and rewrite schemas through this package. It holds for every script, within the exclusions of C07-C09, whose tokens are those of well-formed text (no quote inside quotes, no comment mark inside a word), in which no comment mark arises when the blanks of a CHECK are left out, no DEFAULT expression contains quotes, every MySQL key names a column, and every table has an entry that is reported. The tables returned for such scripts are exactly the tables that can be written (those of C10). The conditions on expressions and keys are needed: without them the rewritten script is rejected (negation theorems).", "quantifier": "every such script, all dialects", "why_tests_cant": "all scripts, in every layout and letter case; every combination of parts", "anchors": ["internal/converter/converter.go", "internal/lexer/lexer.go", "internal/validator/validator_sqlite.go", "internal/validator/validator_postgresql.go", "internal/validator/validator_mysql.go"]}
{"id": "C59", "title": "Exactly which accepted scripts are reported wrongly", "statement": "The exclusions of C07-C09 cannot be made smaller: if an accepted script has a reference to a table with a schema, a column constraint named like AUTOINCREMENT, an index entry (MySQL), or an unnamed EXCLUDE followed by another entry at the start of a definition (PostgreSQL), then Parse does not return the tables it denotes; no later part of the script repairs the result by chance. So a returned result is right exactly when the script has none of these. For scripts with an index entry it is required that no table is named , or ) and no column is named , (in quotes).", "quantifier": "every accepted script, all dialects", "why_tests_cant": "no text may give the right tables by coincidence, whatever follows the point where the converter loses its place", "anchors": ["internal/converter/converter.go"]}
{"id": "C60", "title": "Before the first wrong entry the result is right", "statement": "Whenever Parse returns tables, they begin with the tables of all statements before the first one that C07-C09 exclude, complete and in order. The next table is that of this statement, with its schema, name and IF NOT EXISTS, and its columns and constraints begin with those of the entries before the excluded one. So what is wrong stands behind what is right, never before it or in between. In PostgreSQL a definition that starts with an unnamed EXCLUDE may have wrong columns from the start.", "quantifier": "every accepted script for which Parse returns, all dialects", "why_tests_cant": "whatever follows, in whatever state the converter is", "anchors": ["internal/converter/converter.go"]}
{"id": "C61", "title": "What Parse returns shares no memory", "statement": "Go's append writes into an array that other slices may use. In the result of Parse no array is used by two slices, and all arrays are new: appending to any list of a result, or overwriting the lists of one table, changes nothing else in it; a later call changes no earlier result, and changing its result changes no earlier one. With slices in memory, whatever room append leaves and whatever is in memory before, Parse returns the same tables and errors as with slices as values, and fails to return in the same cases. So also ParseForce.", "quantifier": "every text, every Rdbms value, every contents of the memory, every growth of arrays, every sequence of two calls", "why_tests_cant": "overwriting shows only for certain lengths and capacities, and after further use of the result", "anchors": ["internal/converter/converter.go", "internal/lexer/lexer.go:appendToken", "internal/validator/validator.go:set", "ddlparse.go"]}
{"id": "C62", "title": "Which lists of a result are nil", "statement": "The slice of tables returned is never nil, also with an error, so it is written as [] in JSON. In every table the columns and the four lists of constraints are nil exactly when they have no elements (null in JSON), and the list of column names of a primary key, unique or foreign key constraint is never nil. The same is true of ParseForce.", "quantifier": "every text, every Rdbms value", "why_tests_cant": "all combinations of parts, also when the converter has lost its place", "anchors": ["internal/converter/converter.go"]}
{"id": "C63", "title": "The JSON of a result says exactly the tables", "statement": "json.Marshal of a result of Parse gives a text that is JSON (RFC 8259) whatever characters the names, expressions and default values contain, and a reader of JSON gets from it exactly the tables, with the names of the fields in the README: lists that are null or [], numbers, strings with every character as it was. Two results with the same text are the same tables (but for how a number after DEFAULT was written). It fails exactly when a default value is infinite or NaN. So also for ParseForce. How a float64 is written is a parameter, assumed to be a JSON number and different for different values.", "quantifier": "every text, every Rdbms value, all characters", "why_tests_cant": "names and literals can contain any characters, also those that JSON has to escape", "anchors": ["internal/types/types.go", "internal/converter/converter.go", "ddlparse.go"]}
{"id": "C64", "title": "What a constraint named AUTOINCREMENT is taken for", "statement": "One of the exclusions of C07-C09 loses nothing else: for an accepted script without references to tables with a schema, without index definitions and without an unnamed EXCLUDE followed by another entry at the start of a definition, Parse returns the tables as written, but a column whose constraint is named AUTOINCREMENT or AUTO_INCREMENT (in upper or lower case, without quotes) is reported as AUTOINCREMENT and its constraint without a name. Everything else of that column, all other columns, constraints and tables are right, and the result is the written one exactly when no column constraint has such a name. In any accepted script for which Parse returns, the same holds of all statements and entries before the first one with such a reference, index definition or EXCLUDE. So a wrong name costs this name and one flag, and never makes Parse run on.", "quantifier": "every such script, all dialects", "why_tests_cant": "all scripts with any number of such constraints among any others", "anchors": ["internal/converter/converter.go:convertConstraint", "internal/converter/converter.go:convertConstraintAux"]}
{"id": "C65", "title": "Parse may be called from several goroutines at once", "statement": "Any number of calls of Parse and ParseForce may run at the same time, in any order of their single operations on memory, while the rest of the program does what it likes to memory that no running call owns (also to results already returned): when a call returns, the tables and error are those it returns when made alone; a call that returns alone cannot end in another way among others. No two calls ever use the same array, so there is no data race, and none uses an array made before; no call touches what another one has returned. No call waits for another.", "quantifier": "every number of calls, all texts and Rdbms values, every interleaving, every contents of the memory, every growth of arrays", "why_tests_cant": "a race shows only in rare schedules; the number of schedules is exponential", "anchors": ["ddlparse.go", "internal/converter/converter.go", "internal/lexer/lexer.go:appendToken", "internal/validator/validator.go:set"]}
{"id": "C66", "title": "Exactly which error is reported", "statement": "For every text Parse returns an error exactly if the text has one in this sense, and then that one: the lexical rules of C57 reject it, near what and on which line they say; or some token is the first one with which the text can no longer be completed to a script, which is reported with 1 plus the newlines before it; or the text ends too early, which is reported as <EOF> on the last line. A newline as first token is not counted. No text has two errors. Every text has an error, or an open parenthesis whose contents are not looked at (then Parse never returns), or is a script, and only one of the three. After an accepted script and two newlines the error of a text is reported with the same token and further down by the lines of that script plus two.", "quantifier": "every text, every Rdbms value", "why_tests_cant": "the error of every text, with its line, both ways; all pairs of texts", "anchors": ["internal/validator/validator_sqlite.go", "internal/validator/validator_postgresql.go", "internal/validator/validator_mysql.go", "internal/validator/validator.go:syntaxError", "internal/lexer/lexer.go"]}
