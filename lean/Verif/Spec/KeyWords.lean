import Verif.Model.Basic
/-
The words that have a meaning of their own in the syntax of each dialect: key words,
punctuation, type names, words of literals and of options, and the object kinds after CREATE.
Any other word can only be a name, or stand in a skipped part of the text.
-/

namespace DDL.Spec

/-- Words with a meaning in SQLite. -/
def sqliteWords : List String := [
  "(", ")", ",", ".", ";", "ABORT", "ACTION", "ALWAYS", "AS", "ASC", "AUTOINCREMENT",
  "AUTO_INCREMENT", "BEGIN", "BINARY", "BIT", "CASCADE", "CHARACTER", "CHECK", "COLLATE",
  "CONFLICT", "CONSTRAINT", "CREATE", "CURRENT_DATE", "CURRENT_TIME", "CURRENT_TIMESTAMP",
  "DEFAULT", "DEFERRABLE", "DEFERRED", "DELETE", "DESC", "END", "EXISTS", "FAIL", "FALSE",
  "FOREIGN", "FULL", "GENERATED", "IF", "IGNORE", "IMMEDIATE", "INDEX", "INITIALLY", "INTEGER",
  "KEY", "MATCH", "NO", "NOCASE", "NONE", "NOT", "NULL", "NUMERIC", "ON", "PARTIAL", "PRIMARY",
  "REAL", "REFERENCES", "REPLACE", "RESTRICT", "ROLLBACK", "ROWID", "RTRIM", "SET", "SIMPLE",
  "STORED", "STRICT", "TABLE", "TEMP", "TEMPORARY", "TEXT", "TRIGGER", "TRUE", "UNIQUE",
  "UPDATE", "VARBIT", "VARCHAR", "VARYING", "VIEW", "VIRTUAL", "WITHOUT"]

/-- Words with a meaning in PostgreSQL. -/
def postgresWords : List String := [
  "(", ")", ",", ".", ";", "ACTION", "AGGREGATE", "ALWAYS", "AS", "AUTOINCREMENT",
  "AUTO_INCREMENT", "BEGIN", "BIGINT", "BIGSERIAL", "BIT", "BOOL", "BOOLEAN", "BOX", "BY",
  "BYTEA", "CASCADE", "CHAR", "CHARACTER", "CHECK", "CIDR", "CIRCLE", "COLLATE", "COLLATION",
  "CONSTRAINT", "CONVERSION", "CREATE", "CURRENT_DATE", "CURRENT_TIME", "CURRENT_TIMESTAMP",
  "DATABASE", "DATE", "DECIMAL", "DEFAULT", "DELETE", "DOMAIN", "DOUBLE", "END", "EXCLUDE",
  "EXISTS", "EXTENSION", "FALSE", "FLOAT4", "FLOAT8", "FOREIGN", "FULL", "FUNCTION",
  "GENERATED", "GROUP", "HASH", "IDENTITY", "IF", "INCLUDE", "INDEX", "INET", "INHERIT",
  "INHERITS", "INT", "INT2", "INT4", "INT8", "INTEGER", "JSON", "JSONB", "KEY", "LANGUAGE",
  "LINE", "LIST", "LSEG", "MACADDR", "MACADDR8", "MATCH", "MATERIALIZED", "MONEY", "NO", "NOT",
  "NULL", "NUMERIC", "OIDS", "ON", "OPERATOR", "PARTIAL", "PARTITION", "PATH", "PG_LSN",
  "PG_SNAPSHOT", "POINT", "POLICY", "POLYGON", "PRECISION", "PRIMARY", "PROCEDURE", "RANGE",
  "REAL", "REFERENCES", "RESTRICT", "ROLE", "RULE", "SCHEMA", "SEQUENCE", "SERIAL", "SERIAL2",
  "SERIAL4", "SERIAL8", "SERVER", "SET", "SIMPLE", "SMALLINT", "SMALLSERIAL", "STORED",
  "TABLE", "TABLESPACE", "TEXT", "TIME", "TIMESTAMP", "TIMESTAMPTZ", "TIMETZ", "TRIGGER",
  "TRUE", "TSQUERY", "TSVECTOR", "TXID_SNAPSHOT", "TYPE", "UNIQUE", "UPDATE", "USER", "USING",
  "UUID", "VARBIT", "VARCHAR", "VARYING", "VIEW", "WHERE", "WITH", "WITHOUT", "XML", "ZONE"]

/-- Words with a meaning in MySQL. -/
def mysqlWords : List String := [
  "(", ")", ",", ".", "0", "1", ";", "=", "ACTION", "ALWAYS", "AS", "ASC", "AUTOEXTEND_SIZE",
  "AUTOINCREMENT", "AUTO_INCREMENT", "AVG_ROW_LENGTH", "BEGIN", "BIGINT", "BINARY", "BIT",
  "BLOB", "BOOL", "BOOLEAN", "BTREE", "CASCADE", "CHAR", "CHARACTER", "CHECK", "CHECKSUM",
  "COLLATE", "COLUMN_FORMAT", "COMMENT", "COMPACT", "COMPRESSED", "COMPRESSION", "CONNECTION",
  "CONSTRAINT", "CREATE", "CURRENT_DATE", "CURRENT_TIME", "CURRENT_TIMESTAMP", "DATA",
  "DATABASE", "DATE", "DATETIME", "DECIMAL", "DEFAULT", "DELAY_KEY_WRITE", "DELETE", "DESC",
  "DIRECTORY", "DISK", "DOUBLE", "DYNAMIC", "ENCRYPTION", "END", "ENFORCED", "ENGINE",
  "ENGINE_ATTRIBUTE", "EVENT", "EXISTS", "FALSE", "FIRST", "FIXED", "FLOAT", "FOREIGN", "FULL",
  "FULLTEXT", "FUNCTION", "GENERATED", "GEOMETRY", "GEOMETRYCOLLECTION", "HASH", "IF", "INDEX",
  "INSERT_METHOD", "INT", "INTEGER", "INVISIBLE", "JSON", "KEY", "KEY_BLOCK_SIZE", "LAST",
  "LINESTRING", "LOGIN", "MATCH", "MAX_ROWS", "MEDIUMINT", "MEMORY", "MIN_ROWS",
  "MULTILINESTRING", "MULTIPOINT", "MULTIPOLYGON", "NO", "NOT", "NULL", "NUMERIC", "ON",
  "PACK_KEYS", "PARSER", "PARTIAL", "PASSWORD", "POINT", "POLYGON", "PRIMARY", "PROCEDURE",
  "REAL", "REDUNDANT", "REFERENCES", "RESTRICT", "ROLE", "ROW_FORMAT",
  "SECONDARY_ENGINE_ATTRIBUTE", "SEQUENCE", "SERIAL", "SERVER", "SET", "SIMPLE", "SMALLINT",
  "SPATIAL", "STATS_AUTO_RECALC", "STATS_PERSISTENT", "STATS_SAMPLE_PAGES", "STORAGE",
  "STORED", "TABLE", "TABLESPACE", "TEXT", "TIME", "TIMESTAMP", "TINYINT", "TRIGGER", "TRUE",
  "UNION", "UNIQUE", "UPDATE", "USER", "USING", "VARBINARY", "VARBIT", "VARCHAR", "VARYING",
  "VIEW", "VIRTUAL", "VISIBLE", "WITH", "WITHOUT", "YEAR", "ZONE"]

/-- Words with a meaning in the dialect; unknown dialects are read as SQLite. -/
def grammarWords (d : Rdbms) : List String :=
  match d with
  | .postgres => postgresWords
  | .mysql => mysqlWords
  | _ => sqliteWords

end DDL.Spec
