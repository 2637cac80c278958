/-
Specification, word tables: the reserved words and the type names of the dialects. A second copy of
the tables in the sources, so that the properties do not refer to the tables of the model.
-/

namespace DDL.Spec

/-- Words that cannot be used as unquoted names in SQLite. -/
def reservedSqlite : List String := [
  "ABORT", "ACTION", "ADD", "AFTER", "ALL", "ALTER", "ANALYZE", "AND", "AS", "ASC", "ATTACH",
  "AUTOINCREMENT", "BEFORE", "BEGIN", "BETWEEN", "BY", "CASCADE", "CASE", "CAST", "CHECK",
  "COLLATE", "COLUMN", "COMMIT", "CONFLICT", "CONSTRAINT", "CREATE", "CROSS", "CURRENT",
  "CURRENT_DATE", "CURRENT_TIME", "CURRENT_TIMESTAMP", "DATABASE", "DEFAULT", "DEFERRABLE",
  "DEFERRED", "DELETE", "DESC", "DETACH", "DISTINCT", "DO", "DROP", "EACH", "ELSE", "END",
  "ESCAPE", "EXCEPT", "EXCLUSIVE", "EXISTS", "EXPLAIN", "FAIL", "FILTER", "FOLLOWING", "FOR",
  "FOREIGN", "FROM", "FULL", "GLOB", "GROUP", "HAVING", "IF", "IGNORE", "IMMEDIATE", "IN",
  "INDEX", "INDEXED", "INITIALLY", "INNER", "INSERT", "INSTEAD", "INTERSECT", "INTO", "IS",
  "ISNULL", "JOIN", "KEY", "LEFT", "LIKE", "LIMIT", "MATCH", "NATURAL", "NO", "NOT", "NOTHING",
  "NOTNULL", "NULL", "OF", "OFFSET", "ON", "OR", "ORDER", "OUTER", "OVER", "PARTITION", "PLAN",
  "PRAGMA", "PRECEDING", "PRIMARY", "QUERY", "RAISE", "RANGE", "RECURSIVE", "REFERENCES",
  "REGEXP", "REINDEX", "RELEASE", "RENAME", "REPLACE", "RESTRICT", "RIGHT", "ROLLBACK", "ROW",
  "ROWS", "SAVEPOINT", "SELECT", "SET", "TABLE", "TEMP", "TEMPORARY", "THEN", "TO",
  "TRANSACTION", "TRIGGER", "UNBOUNDED", "UNION", "UNIQUE", "UPDATE", "USING", "VACUUM",
  "VALUES", "VIEW", "VIRTUAL", "WHEN", "WHERE", "WINDOW", "WITH", "WITHOUT"]

/-- Type names of PostgreSQL. -/
def dataTypePostgres : List String := [
  "BIGINT", "INT8", "BIGSERIAL", "SERIAL8", "BIT", "VARBIT", "BOOLEAN", "BOOL", "BOX", "BYTEA",
  "CHARACTER", "CHAR", "VARCHAR", "CIDR", "CIRCLE", "DATE", "FLOAT8", "INET", "INTEGER", "INT",
  "INT4", "JSON", "JSONB", "LINE", "LSEG", "MACADDR", "MACADDR8", "MONEY", "NUMERIC",
  "DECIMAL", "PATH", "PG_LSN", "PG_SNAPSHOT", "POINT", "POLYGON", "REAL", "FLOAT4", "SMALLINT",
  "INT2", "SMALLSERIAL", "SERIAL2", "SERIAL", "SERIAL4", "TEXT", "TIME", "TIMETZ", "TIMESTAMP",
  "TIMESTAMPTZ", "TSQUERY", "TSVECTOR", "TXID_SNAPSHOT", "UUID", "XML"]

/-- Words that cannot be used as unquoted names in PostgreSQL. -/
def reservedPostgres : List String := [
  "A", "ABS", "ADA", "ALIAS", "ALL", "ALLOCATE", "ANALYSE", "ANALYZE", "AND", "ANY", "ARE",
  "ARRAY", "AS", "ASC", "ASENSITIVE", "ASYMMETRIC", "ATOMIC", "ATTRIBUTE", "ATTRIBUTES",
  "AUTHORIZATION", "AVG", "BASE64", "BERNOULLI", "BETWEEN", "BINARY", "BITVAR", "BIT_LENGTH",
  "BLOB", "BOTH", "BREADTH", "C", "CALL", "CARDINALITY", "CASE", "CAST", "CATALOG",
  "CATALOG_NAME", "CEIL", "CEILING", "CHARACTERS", "CHARACTER_LENGTH", "CHARACTER_SET_CATALOG",
  "CHARACTER_SET_NAME", "CHARACTER_SET_SCHEMA", "CHAR_LENGTH", "CHECK", "CHECKED",
  "CLASS_ORIGIN", "CLOB", "COBOL", "COLLATE", "COLLATION", "COLLATION_CATALOG",
  "COLLATION_NAME", "COLLATION_SCHEMA", "COLLECT", "COLUMN", "COLUMN_NAME", "COMMAND_FUNCTION",
  "COMMAND_FUNCTION_CODE", "COMPLETION", "CONDITION", "CONDITION_NUMBER", "CONNECT",
  "CONNECTION_NAME", "CONSTRAINT", "CONSTRAINT_CATALOG", "CONSTRAINT_NAME",
  "CONSTRAINT_SCHEMA", "CONSTRUCTOR", "CONTAINS", "CONTINUE", "CONVERT", "CORR",
  "CORRESPONDING", "COUNT", "COVAR_POP", "COVAR_SAMP", "CREATE", "CROSS", "CUBE", "CUME_DIST",
  "CURRENT", "CURRENT_DATE", "CURRENT_DEFAULT_TRANSFORM_GROUP", "CURRENT_PATH", "CURRENT_ROLE",
  "CURRENT_TIME", "CURRENT_TIMESTAMP", "CURRENT_TRANSFORM_GROUP_FOR_TYPE", "CURRENT_USER",
  "CURSOR_NAME", "DATA", "DATE", "DATETIME_INTERVAL_CODE", "DATETIME_INTERVAL_PRECISION",
  "DEFAULT", "DEFERRABLE", "DEFINED", "DEGREE", "DENSE_RANK", "DEPTH", "DEREF", "DERIVED",
  "DESC", "DESCRIBE", "DESCRIPTOR", "DESTROY", "DESTRUCTOR", "DETERMINISTIC", "DIAGNOSTICS",
  "DISCONNECT", "DISPATCH", "DISTINCT", "DO", "DYNAMIC", "DYNAMIC_FUNCTION",
  "DYNAMIC_FUNCTION_CODE", "ELEMENT", "ELSE", "END", "END-EXEC", "EQUALS", "EVERY", "EXCEPT",
  "EXCEPTION", "EXCLUDE", "EXEC", "EXISTING", "EXP", "FALSE", "FILTER", "FINAL", "FLOOR",
  "FOLLOWING", "FOR", "FOREIGN", "FORTRAN", "FOUND", "FREE", "FREEZE", "FROM", "FULL",
  "FUSION", "G", "GENERAL", "GENERATED", "GET", "GO", "GOTO", "GRANT", "GROUP", "GROUPING",
  "HAVING", "HEX", "HIERARCHY", "HOST", "IDENTITY", "IGNORE", "ILIKE", "IMPLEMENTATION", "IN",
  "INDICATOR", "INFIX", "INITIALIZE", "INITIALLY", "INNER", "INSTANCE", "INSTANTIABLE",
  "INTERSECT", "INTERSECTION", "INTO", "IS", "ISNULL", "ITERATE", "JOIN", "K", "KEY_MEMBER",
  "KEY_TYPE", "LATERAL", "LEADING", "LEFT", "LENGTH", "LESS", "LIKE", "LIMIT", "LN",
  "LOCALTIME", "LOCALTIMESTAMP", "LOCATOR", "LOWER", "M", "MAP", "MATCHED", "MAX", "MEMBER",
  "MERGE", "MESSAGE_LENGTH", "MESSAGE_OCTET_LENGTH", "MESSAGE_TEXT", "METHOD", "MIN", "MOD",
  "MODIFIES", "MODIFY", "MODULE", "MORE", "MULTISET", "MUMPS", "NATURAL", "NCLOB", "NESTING",
  "NEW", "NORMALIZE", "NORMALIZED", "NOT", "NOTNULL", "NULL", "NULLABLE", "NUMBER", "OCTETS",
  "OCTET_LENGTH", "OFF", "OFFSET", "OLD", "ON", "ONLY", "OPEN", "OPERATION", "OPTIONS", "OR",
  "ORDER", "ORDERING", "ORDINALITY", "OTHERS", "OUTER", "OUTPUT", "OVER", "OVERLAPS",
  "OVERRIDING", "PAD", "PARAMETER", "PARAMETERS", "PARAMETER_MODE", "PARAMETER_NAME",
  "PARAMETER_ORDINAL_POSITION", "PARAMETER_SPECIFIC_CATALOG", "PARAMETER_SPECIFIC_NAME",
  "PARAMETER_SPECIFIC_SCHEMA", "PARTITION", "PASCAL", "PATH", "PERCENTILE_CONT",
  "PERCENTILE_DISC", "PERCENT_RANK", "PLACING", "PLI", "POSTFIX", "POWER", "PRECEDING",
  "PREFIX", "PREORDER", "PRIMARY", "PUBLIC", "RANGE", "RANK", "READS", "RECURSIVE", "REF",
  "REFERENCES", "REFERENCING", "REGR_AVGX", "REGR_AVGY", "REGR_COUNT", "REGR_INTERCEPT",
  "REGR_R2", "REGR_SLOPE", "REGR_SXX", "REGR_SXY", "REGR_SYY", "RESULT", "RETURN",
  "RETURNED_CARDINALITY", "RETURNED_LENGTH", "RETURNED_OCTET_LENGTH", "RETURNED_SQLSTATE",
  "RETURNING", "RIGHT", "ROLLUP", "ROUTINE", "ROUTINE_CATALOG", "ROUTINE_NAME",
  "ROUTINE_SCHEMA", "ROW_COUNT", "ROW_NUMBER", "SCALE", "SCHEMA_NAME", "SCOPE",
  "SCOPE_CATALOG", "SCOPE_NAME", "SCOPE_SCHEMA", "SECTION", "SELECT", "SELF", "SENSITIVE",
  "SERVER_NAME", "SESSION_USER", "SETS", "SIMILAR", "SIZE", "SOME", "SOURCE", "SPACE",
  "SPECIFIC", "SPECIFICTYPE", "SPECIFIC_NAME", "SQL", "SQLCODE", "SQLERROR", "SQLEXCEPTION",
  "SQLSTATE", "SQLWARNING", "SQRT", "STATE", "STATIC", "STDDEV_POP", "STDDEV_SAMP",
  "STRUCTURE", "STYLE", "SUBCLASS_ORIGIN", "SUBLIST", "SUBMULTISET", "SUM", "SYMMETRIC",
  "SYSTEM_USER", "TABLE", "TABLESAMPLE", "TABLE_NAME", "TERMINATE", "THAN", "THEN", "TIES",
  "TIMEZONE_HOUR", "TIMEZONE_MINUTE", "TO", "TOP_LEVEL_COUNT", "TRAILING",
  "TRANSACTIONS_COMMITTED", "TRANSACTIONS_ROLLED_BACK", "TRANSACTION_ACTIVE", "TRANSFORM",
  "TRANSFORMS", "TRANSLATE", "TRANSLATION", "TRIGGER_CATALOG", "TRIGGER_NAME",
  "TRIGGER_SCHEMA", "TRUE", "UESCAPE", "UNBOUNDED", "UNDER", "UNION", "UNIQUE", "UNNAMED",
  "UNNEST", "UPPER", "USAGE", "USER", "USER_DEFINED_TYPE_CATALOG", "USER_DEFINED_TYPE_CODE",
  "USER_DEFINED_TYPE_NAME", "USER_DEFINED_TYPE_SCHEMA", "USING", "VARIABLE", "VAR_POP",
  "VAR_SAMP", "VERBOSE", "WHEN", "WHENEVER", "WHERE", "WIDTH_BUCKET", "WINDOW", "WITH",
  "WITHIN", "XMLAGG", "XMLBINARY", "XMLCOMMENT", "XMLNAMESPACES"]

/-- Type names of MySQL. -/
def dataTypeMysql : List String := [
  "SERIAL", "BOOL", "BOOLEAN", "INTEGER", "INT", "SMALLINT", "TINYINT", "MEDIUMINT", "BIGINT",
  "DECIMAL", "NUMERIC", "FLOAT", "DOUBLE", "BIT", "DATE", "DATETIME", "TIMESTAMP", "TIME",
  "YEAR", "CHAR", "VARCHAR", "BINARY", "VARBINARY", "BLOB", "TEXT", "GEOMETRY", "POINT",
  "LINESTRING", "POLYGON", "MULTIPOINT", "MULTILINESTRING", "MULTIPOLYGON",
  "GEOMETRYCOLLECTION", "JSON"]

/-- Words that cannot be used as unquoted names in MySQL. -/
def reservedMysql : List String := [
  "AUTO_INCREMENT", "ACCESSIBLE", "ADD", "ALL", "ALTER", "ANALYZE", "AND", "ARRAY", "AS",
  "ASC", "ASENSITIVE", "BEFORE", "BETWEEN", "BIGINT", "BINARY", "BLOB", "BOTH", "BY", "CALL",
  "CASCADE", "CASE", "CHANGE", "CHAR", "CHARACTER", "CHECK", "COLLATE", "COLUMN", "CONDITION",
  "CONSTRAINT", "CONTINUE", "CONVERT", "CREATE", "CROSS", "CUBE", "CUME_DIST", "CURRENT_DATE",
  "CURRENT_TIME", "CURRENT_TIMESTAMP", "CURRENT_USER", "CURSOR", "DATABASE", "DATABASES",
  "DAY_HOUR", "DAY_MICROSECOND", "DAY_MINUTE", "DAY_SECOND", "DEC", "DECIMAL", "DECLARE",
  "DEFAULT", "DELAYED", "DELETE", "DENSE_RANK", "DESC", "DESCRIBE", "DETERMINISTIC",
  "DISTINCT", "DISTINCTROW", "DIV", "DOUBLE", "DROP", "DUAL", "EACH", "ELSE", "ELSEIF",
  "EMPTY", "ENCLOSED", "ESCAPED", "EXCEPT", "EXISTS", "EXIT", "EXPLAIN", "FALSE", "FETCH",
  "FIRST_VALUE", "FLOAT", "FLOAT4", "FLOAT8", "FOR", "FORCE", "FOREIGN", "FROM", "FULLTEXT",
  "FUNCTION", "GENERATED", "GET", "GRANT", "GROUP", "GROUPING", "GROUPS", "HAVING",
  "HIGH_PRIORITY", "HOUR_MICROSECOND", "HOUR_MINUTE", "HOUR_SECOND", "IF", "IGNORE", "IN",
  "INDEX", "INFILEx", "INNER", "INOUT", "INSENSITIVE", "INSERT", "INT", "INT1", "INT2", "INT3",
  "INT4", "INT8", "INTEGER", "INTERVAL", "INTO", "IO_AFTER_GTIDS", "IO_BEFORE_GTIDS", "IS",
  "ITERATE", "JOIN", "JSON_TABLE", "KEY", "KEYS", "KILL", "LAG", "LAST_VALUE", "LATERAL",
  "LEAD", "LEADING", "LEAVE", "LEFT", "LIKE", "LIMIT", "LINEAR", "LINES", "LOAD", "LOCALTIME",
  "LOCALTIMESTAMP", "LOCK", "LONG", "LONGBLOB", "LONGTEXT", "LOOP", "LOW_PRIORITY", "MASTER",
  "MASTER_BIND", "MASTER_SSL_VERIFY_SERVER_CERT", "MATCH", "MAXVALUE", "MEDIUMBLOB",
  "MEDIUMINT", "MEDIUMTEXT", "MEMBER", "MIDDLEINT", "MINUTE_MICROSECOND", "MINUTE_SECOND",
  "MOD", "MODIFIES", "NATURAL", "NOT", "NO_WRITE_TO_BINLOG", "NTH_VALUE", "NTILE", "NULL",
  "NUMERIC", "OF", "ON", "OPTIMIZE", "OPTIMIZER_COSTS", "OPTION", "OPTIONALLY", "OR", "ORDER",
  "OUT", "OUTER", "OUTFILE", "OVER", "PARTITION", "PERCENT_RANK", "PRECISION", "PRIMARY",
  "PROCEDURE", "PURGE", "RANGE", "RANK", "READ", "READS", "READ_WRITE", "REAL", "RECURSIVE",
  "REFERENCES", "REGEXP", "RELEASE", "RENAME", "REPEAT", "REPLACE", "REQUIRE", "RESIGNAL",
  "RESTRICT", "RETURN", "REVOKE", "RIGHT", "RLIKE", "ROW", "ROWS", "ROW_NUMBER", "SCHEMA",
  "SCHEMAS", "SECOND_MICROSECOND", "SELECT", "SENSITIVE", "SEPARATOR", "SET", "SHOW", "SIGNAL",
  "SMALLINT", "SPATIAL", "SPECIFIC", "SQL", "SQLEXCEPTION", "SQLSTATE", "SQLWARNING",
  "SQL_BIG_RESULT", "SQL_CALC_FOUND_ROWS", "SQL_SMALL_RESULT", "SSL", "STARTING", "STORED",
  "STRAIGHT_JOIN", "SYSTEM", "TABLE", "TERMINATED", "THEN", "TINYBLOB", "TINYINT", "TINYTEXT",
  "TO", "TRAILING", "TRIGGER", "TRUE", "UNDO", "UNION", "UNIQUE", "UNLOCK", "UNSIGNED",
  "UPDATE", "USAGE", "USE", "USING", "UTC_DATE", "UTC_TIME", "UTC_TIMESTAMP", "VALUES",
  "VARBINARY", "VARCHAR", "VARCHARACTER", "VARYING", "VIRTUAL", "WHEN", "WHERE", "WHILE",
  "WINDOW", "WITH", "WRITE", "XOR", "YEAR_MONTH", "ZEROFILL"]

end DDL.Spec
