import Verif.Model.Parse
/-
The expectations of the repo's own Go tests, transcribed by tools/gen_tests.py and evaluated on
the model. These are tests of the model's fidelity, not proofs.
-/
namespace DDL.Tests
open DDL

/-- Number of tokens, or the error. -/
def lexSize (d : Rdbms) (s : String) : Nat ⊕ (Nat × String) :=
  match Lex.lexN d 100000 s.toList with
  | .ok ts => .inl ts.length
  | .err e => .inr (e.line, String.ofList e.near)
  | _ => .inr (0, "")

/-- Syntax check: `none` = accepted. -/
def val (d : Rdbms) (s : String) : Option (Nat × String) :=
  match Lex.lexN d 100000 s.toList with
  | .ok ts =>
    match validateN simpleNum d 100000 ts with
    | .ok _ => none
    | .err e => some (e.line, String.ofList e.near)
    | _ => some (0, "")
  | .err e => some (e.line, String.ofList e.near)
  | _ => some (0, "")

instance : BEq (Outcome (List Table × Option VErr)) := ⟨fun a b => decide (a = b)⟩

/-- `Parse` returns these tables and no error. -/
def conv (d : Rdbms) (s : String) (ts : List Table) : Bool :=
  parseN simpleNum 100000 s.toList d == .ok (ts, none)

/-- `ParseForce` returns these tables and no error. -/
def force (s : String) (ts : List Table) : Bool :=
  parseForceN simpleNum 100000 s.toList == .ok (ts, none)


-- test/lexer_test.go:12
#guard lexSize .sqlite "" = .inl 0
-- test/lexer_test.go:24
#guard lexSize .sqlite "CREATE TABLE IF NOT EXISTS users (\n\t\t\t\"user_id\" INTEGER PRIMARY KEY AUTOINCREMENT,\n\t\t\t'username' TEXT NOT NULL UNIQUE, * - -2 #aaaaaa\n\t\t\tpassword TEXT NOT NULL DEFAULT \"aaaa'bbb'aaaa\", --XXX\n\t\t\temail TEXT NOT NULL UNIQUE, /*aaa*/\n\t\t\tcreated_at TEXT NOT NULL DEFAULT (DATETIME('now', 'localtime')),\n\t\t\tupdated_at TEXT NOT NULL DEFAULT(DATETIME('now', 'localtime'))\n\t\t);CREATE TABLE IF NOT EXISTS users (`user_id` INTEGER PRIMARY KEY AUTOINCREMENT)" = .inl 85
-- test/lexer_test.go:30
#guard lexSize .sqlite "CREATE TABLE IF NOT EXISTS users (\n\t\t\"user_id\" INTEGER PRIMARY KEY AUTOINCREMENT,\n\t\temail TEXT NOT NULL UNIQUE */\n\t);" = .inr (3, "*")
-- test/lexer_test.go:36
#guard lexSize .sqlite "CREATE TABLE IF NOT EXISTS users (\n\t\t\"user_id\" INTEGER PRIMARY KEY AUTOINCREMENT, /*\n\t\temail TEXT NOT NULL UNIQUE\n\t);" = .inr (4, "<EOF>")
-- test/lexer_test.go:42
#guard lexSize .sqlite "CREATE TABLE IF NOT EXISTS users (\n\t\t\"user_id\" INTEGER PRIMARY KEY AUTOINCREMENT,\n\t\temail TEXT NOT NULL UNIQUE \"\n\t);" = .inr (4, "<EOF>")
-- test/lexer_test.go:48
#guard lexSize .sqlite "CREATE TABLE IF NOT EXISTS users (\n\t\t\"user_id\" INTEGER PRIMARY KEY AUTOINCREMENT,\n\t\temail TEXT NOT NULL UNIQUE '\n\t);" = .inr (4, "<EOF>")
-- test/lexer_test.go:51
#guard lexSize .sqlite "CREATE TABLE IF NOT EXISTS `users ();" = .inr (1, "<EOF>")
-- test/lexer_test.go:67
#guard lexSize .mysql "CREATE TABLE IF NOT EXISTS users (\n\t\t\"user_id\" INTEGER PRIMARY KEY AUTOINCREMENT,\n\t\t'username' TEXT NOT NULL UNIQUE, * - -2 #aaaaaa\n\t\tpassword TEXT NOT NULL DEFAULT \"aaaa'bbb'aaaa\", --XXX\n\t\temail TEXT NOT NULL UNIQUE, /*aaa*/\n\t\tcreated_at TEXT NOT NULL DEFAULT (DATETIME('now', 'localtime')),\n\t\tupdated_at TEXT NOT NULL DEFAULT(DATETIME('now', 'localtime'))\n\t);CREATE TABLE IF NOT EXISTS users (`user_id` INTEGER PRIMARY KEY AUTOINCREMENT)" = .inl 84
-- test/lexer_test.go:84
#guard lexSize .postgres "CREATE TABLE IF NOT EXISTS users (\n\t\t\"user_id\" INTEGER PRIMARY KEY AUTOINCREMENT,\n\t\t'username' TEXT NOT NULL UNIQUE, * - -2 #aaaaaa\n\t\tpassword TEXT NOT NULL DEFAULT \"aaaa'bbb'aaaa\", --XXX\n\t\temail TEXT NOT NULL UNIQUE, /*aaa*/\n\t\tcreated_at TEXT NOT NULL DEFAULT (DATETIME('now', 'localtime')),\n\t\tupdated_at TEXT NOT NULL DEFAULT(DATETIME('now', 'localtime'))\n\t);CREATE TABLE IF NOT EXISTS users (`user_id` INTEGER PRIMARY KEY AUTOINCREMENT)" = .inr (8, "`")
-- test/validator_sqlite_test.go:13
#guard val .sqlite "" = none
-- test/validator_sqlite_test.go:17
#guard val .sqlite "CREAT TABLE IF NOT EXISTS users ();" = some (1, "CREAT")
-- test/validator_sqlite_test.go:22
#guard val .sqlite "CREATE TABLE IF NOT EXISTS users (\n\n\t);" = some (3, ")")
-- test/validator_sqlite_test.go:25
#guard val .sqlite "CREATE TABLE IF EXISTS users ();" = some (1, "EXISTS")
-- test/validator_sqlite_test.go:28
#guard val .sqlite "CREATE TABL IF NOT EXISTS users ();" = some (1, "TABL")
-- test/validator_sqlite_test.go:31
#guard val .sqlite "CREATE TABLE IF NOT EXISTS \"users ();" = some (1, "<EOF>")
-- test/validator_sqlite_test.go:34
#guard val .sqlite "CREATE TABLE IF NOT EXISTS `users ();" = some (1, "<EOF>")
-- test/validator_sqlite_test.go:37
#guard val .sqlite "CREATE TABLE IF NOT EXISTS AUTOINCREMENT ();" = some (1, "AUTOINCREMENT")
-- test/validator_sqlite_test.go:42
#guard val .sqlite "CREATE TABLE IF NOT EXISTS users (\n\t\taaaa INTEGER,\n\t);" = some (3, ")")
-- test/validator_sqlite_test.go:54
#guard val .sqlite "create table users (\n\t\taaaa integer, --comment\n\t\taaaa integer, /* commen\n\t\tcomment\n\t\tcomment\n\t\t*/\n\t\taaaa integer\n\t);" = none
-- test/validator_sqlite_test.go:60
#guard val .sqlite "create table users (\n\t\taaaa integer,\n\t\taaaa integer -comment\n\t);" = some (3, "-comment")
-- test/validator_sqlite_test.go:66
#guard val .sqlite "create table users (\n\t\taaaa integer,\n\t\taaaa integer / * aaa */\n\t);" = some (3, "*")
-- test/validator_sqlite_test.go:72
#guard val .sqlite "create table users (\n\t\taaaa integer,\n\t\taaaa integer /* aaa\n\t);" = some (4, "<EOF>")
-- test/validator_sqlite_test.go:78
#guard val .sqlite "create table users (\n\t\taaaa integer,\n\t\taaaa integer #aaa\n\t);" = some (3, "#aaa")
-- test/validator_sqlite_test.go:84
#guard val .sqlite "create table users (\n\t\taaaa integer --aaa,\n\t\taaaa integer \n\t);" = some (3, "aaaa")
-- test/validator_sqlite_test.go:91
#guard val .sqlite "create table scm.users (\n\t\taaaa integer\n\t);" = none
-- test/validator_sqlite_test.go:96
#guard val .sqlite "create table scm users (\n\t\taaaa integer\n\t);" = some (1, "users")
-- test/validator_sqlite_test.go:101
#guard val .sqlite "create table scm,users (\n\t\taaaa integer\n\t);" = some (1, ",")
-- test/validator_sqlite_test.go:108
#guard val .sqlite "create table \"scm\".\"users\" (\n\t\t\"aaaa\" integer\n\t);" = none
-- test/validator_sqlite_test.go:113
#guard val .sqlite "create table 'scm'.\"users\" (\n\t\t\"aaaa\" integer\n\t);" = some (1, "'scm'")
-- test/validator_sqlite_test.go:118
#guard val .sqlite "create table \"scm\".'users' (\n\t\t\"aaaa\" integer\n\t);" = some (1, "'users'")
-- test/validator_sqlite_test.go:123
#guard val .sqlite "create table \"scm\".\"users\" (\n\t\t'aaaa' integer\n\t);" = some (2, "'aaaa'")
-- test/validator_sqlite_test.go:126
#guard val .sqlite "create table `scm`.`users` (`aaaa` integer);" = none
-- test/validator_sqlite_test.go:131
#guard val .sqlite "create table \"scm.users (\n\t\taaaa integer\n\t);" = some (3, "<EOF>")
-- test/validator_sqlite_test.go:134
#guard val .sqlite "create table `scm.users (aaaa integer);" = some (1, "<EOF>")
-- test/validator_sqlite_test.go:147
#guard val .sqlite "create table users (\n\t\taaaa integer,\n\t\taaaa text,\n\t\taaaa numeric,\n\t\taaaa integer,\n\t\taaaa real,\n\t\taaaa none\n\t);" = none
-- test/validator_sqlite_test.go:152
#guard val .sqlite "create table users (\n\t\taaaa integerrr\n\t);" = some (2, "integerrr")
-- test/validator_sqlite_test.go:171
#guard val .sqlite "create table users (\n\t\taaaa integer\n\t) without rowid;\n\t\n\tcreate table users (\n\t\taaaa integer\n\t) strict;\n\n\tcreate table users (\n\t\taaaa integer\n\t) strict, without rowid;\n\t\n\tcreate table users (\n\t\taaaa integer\n\t) without rowid, strict;" = none
-- test/validator_sqlite_test.go:176
#guard val .sqlite "create table users (\n\t\taaaa integer\n\t) without;" = some (3, ";")
-- test/validator_sqlite_test.go:181
#guard val .sqlite "create table users (\n\t\taaaa integer\n\t) strict, without rowid, strict;" = some (3, ",")
-- test/validator_sqlite_test.go:202
#guard val .sqlite "create table users (\n\t\tuser_id INTEGER PRIMARY KEY AUTOINCREMENT,\n\t\tPRIMARY KEY (a),\n\t\tCONSTRAINT const_name PRIMARY KEY (a, b, \"c\"),\n\t\tCONSTRAINT const_name PRIMARY KEY (a, b, \"c\") ON CONFLICT ROLLBACK,\n\t\tconstraint const_name primary key (a, b, \"c\") on conflict rollback,\n\t\tUNIQUE (a),\n\t\tCONSTRAINT const_name UNIQUE (a, b, \"c\"),\n\t\tCONSTRAINT const_name UNIQUE (a, b, \"c\") ON CONFLICT ROLLBACK,\n\t\tconstraint const_name unique (a, b, \"c\") on conflict rollback,\n\t\tCHECK (a),\n\t\tCONSTRAINT const_name CHECK (aaa(aa(a)a())aa),\n\t\tCONSTRAINT const_name check (aaa(aa(a)a())aa),\n\t\tFOREIGN KEY (a) REFERENCES bbb(ccc) ON DELETE SET NULL,\n\t\tCONSTRAINT const_name FOREIGN KEY (a, b, \"c\") REFERENCES bbb(ccc) ON DELETE SET NULL,\n\t\tconstraint const_name foreign key (a, b, \"c\") references bbb(ccc) on delete set null\n\t);" = none
-- test/validator_sqlite_test.go:208
#guard val .sqlite "create table users (\n\t\taaaa integer,\n\t\tconstraintttt check(aaaa)\n\t);" = some (3, "check")
-- test/validator_sqlite_test.go:214
#guard val .sqlite "create table users (\n\t\taaaa integer,\n\t\tconstraint check check(aaaa)\n\t);" = some (3, "check")
-- test/validator_sqlite_test.go:220
#guard val .sqlite "create table users (\n\t\taaaa integer,\n\t\tconstraint constraint_zzzz check a\n\t);" = some (3, "a")
-- test/validator_sqlite_test.go:226
#guard val .sqlite "create table users (\n\t\taaaa integer,\n\t\tcheck(aaa) inherit,\n\t);" = some (3, "inherit")
-- test/validator_sqlite_test.go:232
#guard val .sqlite "create table users (\n\t\taaaa integer,\n\t\tunique\n\t);" = some (4, ")")
-- test/validator_sqlite_test.go:238
#guard val .sqlite "create table users (\n\t\taaaa integer,\n\t\tunique('aaaa')\n\t);" = some (3, "'aaaa'")
-- test/validator_sqlite_test.go:244
#guard val .sqlite "create table users (\n\t\taaaa integer,\n\t\tprimary key\n\t);" = some (4, ")")
-- test/validator_sqlite_test.go:250
#guard val .sqlite "create table users (\n\t\taaaa integer,\n\t\tprimary key('aaaa')\n\t);" = some (3, "'aaaa'")
-- test/validator_sqlite_test.go:326
#guard val .sqlite "create table users (\n\t\taaaa INTEGER PRIMARY KEY,\n\t\taaaa INTEGER PRIMARY KEY AUTOINCREMENT,\n\t\taaaa INTEGER PRIMARY KEY ASC AUTOINCREMENT,\n\t\taaaa INTEGER PRIMARY KEY DESC AUTOINCREMENT,\n\t\taaaa INTEGER PRIMARY KEY ON CONFLICT ROLLBACK AUTOINCREMENT,\n\t\taaaa INTEGER PRIMARY KEY ON CONFLICT ABORT AUTOINCREMENT,\n\t\taaaa INTEGER PRIMARY KEY ON CONFLICT FAIL AUTOINCREMENT,\n\t\taaaa INTEGER PRIMARY KEY ON CONFLICT IGNORE AUTOINCREMENT,\n\t\taaaa INTEGER PRIMARY KEY ON CONFLICT REPLACE AUTOINCREMENT,\n\t\taaaa integer primary key on conflict rollback autoincrement,\n\t\taaaa INTEGER PRIMARY KEY ON CONFLICT ROLLBACK,\n\t\taaaa INTEGER NOT NULL,\n\t\taaaa INTEGER NOT NULL ON CONFLICT ROLLBACK,\n\t\taaaa INTEGER NOT NULL ON CONFLICT ABORT,\n\t\taaaa INTEGER NOT NULL ON CONFLICT FAIL,\n\t\taaaa INTEGER NOT NULL ON CONFLICT IGNORE,\n\t\taaaa INTEGER NOT NULL ON CONFLICT REPLACE,\n\t\taaaa integer not null on conflict rollback,\n\t\taaaa INTEGER UNIQUE,\n\t\taaaa INTEGER UNIQUE ON CONFLICT ROLLBACK,\n\t\taaaa INTEGER UNIQUE ON CONFLICT ABORT,\n\t\taaaa INTEGER UNIQUE ON CONFLICT FAIL,\n\t\taaaa INTEGER UNIQUE ON CONFLICT IGNORE,\n\t\taaaa INTEGER UNIQUE ON CONFLICT REPLACE,\n\t\taaaa integer unique on conflict rollback,\n\t\taaaa INTEGER CHECK (),\n\t\taaaa INTEGER CHECK (aaaaaaaaa),\n\t\taaaa INTEGER CHECK (aaa(aa(a)a())aa),\n\t\taaaa integer check (aaaaaaaaa),\n\t\taaaa INTEGER DEFAULT (),\n\t\taaaa INTEGER DEFAULT (aaaaaaaaa),\n\t\taaaa INTEGER DEFAULT (aaa(aa(a)a())aa),\n\t\taaaa INTEGER DEFAULT +10,\n\t\taaaa INTEGER DEFAULT -10,\n\t\taaaa INTEGER DEFAULT 10,\n\t\taaaa INTEGER DEFAULT 'aaaaa',\n\t\taaaa INTEGER DEFAULT NULL,\n\t\taaaa INTEGER DEFAULT TRUE,\n\t\taaaa INTEGER DEFAULT FALSE,\n\t\taaaa INTEGER DEFAULT CURRENT_TIME,\n\t\taaaa INTEGER DEFAULT CURRENT_DATE,\n\t\taaaa INTEGER DEFAULT CURRENT_TIMESTAMP,\n\t\taaaa integer default null,\n\t\taaaa integer default true,\n\t\taaaa integer default false,\n\t\taaaa integer default current_time,\n\t\taaaa integer default current_date,\n\t\taaaa integer default current_timestamp,\n\t\taaaa INTEGER COLLATE BINARY,\n\t\taaaa INTEGER COLLATE NOCASE,\n\t\taaaa INTEGER COLLATE RTRIM,\n\t\taaaa INTEGER collate binary,\n\t\taaaa INTEGER collate nocase,\n\t\taaaa INTEGER collate rtrim,\n\t\taaaa INTEGER REFERENCES bbb(ccc),\n\t\taaaa INTEGER REFERENCES bbb(ccc) ON DELETE SET NULL,\n\t\taaaa INTEGER REFERENCES bbb(ccc) ON DELETE SET DEFAULT,\n\t\taaaa INTEGER REFERENCES bbb(ccc) ON UPDATE CASCADE,\n\t\taaaa INTEGER REFERENCES bbb(ccc) ON UPDATE RESTRICT,\n\t\taaaa INTEGER REFERENCES bbb(ccc) ON UPDATE NO ACTION,\n\t\taaaa INTEGER REFERENCES bbb(ccc) MATCH SIMPLE,\n\t\taaaa INTEGER REFERENCES bbb(ccc) MATCH PARTIAL,\n\t\taaaa INTEGER REFERENCES bbb(ccc) MATCH FULL,\n\t\taaaa INTEGER REFERENCES bbb(ccc) DEFERRABLE,\n\t\taaaa INTEGER REFERENCES bbb(ccc) NOT DEFERRABLE,\n\t\taaaa INTEGER REFERENCES bbb(ccc) NOT DEFERRABLE INITIALLY DEFERRED,\n\t\taaaa INTEGER REFERENCES bbb(ccc) NOT DEFERRABLE INITIALLY IMMEDIATE,\n\t\taaaa INTEGER REFERENCES bbb(ccc) ON DELETE SET NULL MATCH SIMPLE DEFERRABLE INITIALLY IMMEDIATE,\n\t\taaaa INTEGER REFERENCES bbb ON DELETE SET NULL MATCH SIMPLE DEFERRABLE INITIALLY IMMEDIATE,\n\t\taaaa INTEGER NOT NULL UNIQUE DEFAULT -10\n\t);" = none
-- test/validator_sqlite_test.go:331
#guard val .sqlite "create table users (\n\t\taaaa integer default \"aaa\"\n\t);" = some (2, "\"aaa\"")
-- test/validator_sqlite_test.go:334
#guard val .sqlite "create table users (aaaa integer default `aaa`);" = some (1, "`aaa`")
-- test/validator_sqlite_test.go:339
#guard val .sqlite "create table users (\n\t\taaaa integer default aaa\n\t);" = some (2, "aaa")
-- test/validator_sqlite_test.go:344
#guard val .sqlite "create table users (\n\t\taaaa integer default 'aaa\n\t);" = some (3, "<EOF>")
-- test/validator_sqlite_test.go:349
#guard val .sqlite "create table users (\n\t\taaaa integer default - 2\n\t);" = some (2, "-")
-- test/validator_sqlite_test.go:354
#guard val .sqlite "create table users (\n\t\taaaa integer unique unique\n\t);" = some (2, "unique")
-- test/validator_sqlite_test.go:359
#guard val .sqlite "create table users (\n\t\taaaa integer primary key primary key\n\t);" = some (2, "primary")
-- test/validator_sqlite_test.go:391
#guard val .sqlite "create table users (\n\t\taaaa integer\n\t) without rowid;\n\t\n\tcreate temp table users (\n\t\taaaa integer\n\t) strict;\n\n\tCREATE TRIGGER update_timestamp\n\tAFTER UPDATE ON users\n\tFOR EACH ROW\n\tBEGIN\n\t\tUPDATE users SET updated_at = CURRENT_TIMESTAMP WHERE id = NEW.id;\n\tEND;\n\n\tCREATE VIRTUAL TABLE documents USING fts5(content);\n\n\tCREATE TEMP VIEW temp_active_users AS\n\tSELECT id, name, email\n\tFROM users\n\tWHERE active = 1;\n\n\tCREATE INDEX idx_active_users_email ON users(email) WHERE active = 1;\n\tCREATE UNIQUE INDEX idx_users_unique_email ON users(email);\n\t\n\tcreate table users2 (\n\t\taaaa integer\n\t) without rowid, strict;" = none
-- test/validator_sqlite_test.go:403
#guard val .sqlite "create table users (\n\t\taaaa integer\n\t) without rowid;\n\n\tCREATE TRIGGE update_timestamp\n\tAFTER UPDATE ON users\n\tFOR EACH ROW\n\tBEGIN\n\t\tUPDATE users SET updated_at = CURRENT_TIMESTAMP WHERE id = NEW.id;\n\tEND;" = some (5, "TRIGGE")
-- test/validator_postgresql_test.go:13
#guard val .postgres "" = none
-- test/validator_postgresql_test.go:17
#guard val .postgres "CREAT TABLE IF NOT EXISTS users ();" = some (1, "CREAT")
-- test/validator_postgresql_test.go:22
#guard val .postgres "CREATE TABLE IF NOT EXISTS users (\n\n\t);" = some (3, ")")
-- test/validator_postgresql_test.go:25
#guard val .postgres "CREATE TABLE IF EXISTS users ();" = some (1, "EXISTS")
-- test/validator_postgresql_test.go:28
#guard val .postgres "CREATE TABL IF NOT EXISTS users ();" = some (1, "TABL")
-- test/validator_postgresql_test.go:31
#guard val .postgres "CREATE TABLE IF NOT EXISTS \"users ();" = some (1, "<EOF>")
-- test/validator_postgresql_test.go:34
#guard val .postgres "CREATE TABLE IF NOT EXISTS 'users ();" = some (1, "<EOF>")
-- test/validator_postgresql_test.go:37
#guard val .postgres "CREATE TABLE IF NOT EXISTS ALLOCATE ();" = some (1, "ALLOCATE")
-- test/validator_postgresql_test.go:42
#guard val .postgres "CREATE TABLE IF NOT EXISTS users (\n\t\taaaa INTEGER,\n\t);" = some (3, ")")
-- test/validator_postgresql_test.go:54
#guard val .postgres "create table users (\n\t\taaaa integer, --comment\n\t\taaaa integer, /* commen\n\t\tcomment\n\t\tcomment\n\t\t*/\n\t\taaaa integer\n\t);" = none
-- test/validator_postgresql_test.go:60
#guard val .postgres "create table users (\n\t\taaaa int,\n\t\taaaa integer -comment\n\t);" = some (3, "-comment")
-- test/validator_postgresql_test.go:66
#guard val .postgres "create table users (\n\t\taaaa int,\n\t\taaaa integer / * aaa */\n\t);" = some (3, "*")
-- test/validator_postgresql_test.go:72
#guard val .postgres "create table users (\n\t\taaaa int,\n\t\taaaa integer /* aaa\n\t);" = some (4, "<EOF>")
-- test/validator_postgresql_test.go:78
#guard val .postgres "create table users (\n\t\taaaa int,\n\t\taaaa integer #aaa\n\t);" = some (3, "#aaa")
-- test/validator_postgresql_test.go:84
#guard val .postgres "create table users (\n\t\taaaa int --aaa,\n\t\taaaa integer \n\t);" = some (3, "aaaa")
-- test/validator_postgresql_test.go:91
#guard val .postgres "create table scm.users (\n\t\taaaa integer\n\t);" = none
-- test/validator_postgresql_test.go:96
#guard val .postgres "create table scm users (\n\t\taaaa integer\n\t);" = some (1, "users")
-- test/validator_postgresql_test.go:101
#guard val .postgres "create table scm,users (\n\t\taaaa integer\n\t);" = some (1, ",")
-- test/validator_postgresql_test.go:108
#guard val .postgres "create table \"scm\".\"users\" (\n\t\t\"aaaa\" integer\n\t);" = none
-- test/validator_postgresql_test.go:113
#guard val .postgres "create table 'scm'.\"users\" (\n\t\t\"aaaa\" integer\n\t);" = some (1, "'scm'")
-- test/validator_postgresql_test.go:118
#guard val .postgres "create table \"scm\".'users' (\n\t\t\"aaaa\" integer\n\t);" = some (1, "'users'")
-- test/validator_postgresql_test.go:123
#guard val .postgres "create table \"scm\".\"users\" (\n\t\t'aaaa' integer\n\t);" = some (2, "'aaaa'")
-- test/validator_postgresql_test.go:126
#guard val .postgres "create table `scm`.`users` (`aaaa` integer);" = some (1, "`")
-- test/validator_postgresql_test.go:131
#guard val .postgres "create table \"scm.users (\n\t\taaaa integer\n\t);" = some (3, "<EOF>")
-- test/validator_postgresql_test.go:209
#guard val .postgres "create table users (\n\t\taaaa bigint,\n\t\taaaa int8,\n\t\taaaa bigserial,\n\t\taaaa serial8,\n\t\taaaa bit,\n\t\taaaa bit(10),\n\t\taaaa bit varying,\n\t\taaaa bit varying(10),\n\t\taaaa varbit,\n\t\taaaa varbit(10),\n\t\taaaa boolean,\n\t\taaaa bool,\n\t\taaaa box,\n\t\taaaa bytea,\n\t\taaaa character,\n\t\taaaa character(10),\n\t\taaaa char,\n\t\taaaa char(10),\n\t\taaaa character varying,\n\t\taaaa character varying(10),\n\t\taaaa varchar,\n\t\taaaa varchar(10),\n\t\taaaa cidr,\n\t\taaaa circle,\n\t\taaaa double precision,\n\t\taaaa float8,\n\t\taaaa inet,\n\t\taaaa integer,\n\t\taaaa int,\n\t\taaaa int4,\n\t\taaaa json,\n\t\taaaa jsonb,\n\t\taaaa line,\n\t\taaaa lseg,\n\t\taaaa macaddr,\n\t\taaaa macaddr8,\n\t\taaaa money,\n\t\taaaa numeric,\n\t\taaaa numeric(10),\n\t\taaaa numeric(10, 5),\n\t\taaaa decimal,\n\t\taaaa decimal(10),\n\t\taaaa decimal(10, 5),\n\t\taaaa path,\n\t\taaaa pg_lsn,\n\t\taaaa pg_snapshot,\n\t\taaaa point,\n\t\taaaa polygon,\n\t\taaaa real,\n\t\taaaa float4,\n\t\taaaa smallint,\n\t\taaaa int2,\n\t\taaaa smallserial,\n\t\taaaa serial2,\n\t\taaaa serial,\n\t\taaaa serial4,\n\t\taaaa text,\n\t\taaaa time,\n\t\taaaa time(10),\n\t\taaaa time(10) without time zone,\n\t\taaaa time(10) with time zone,\n\t\taaaa timetz,\n\t\taaaa timestamp,\n\t\taaaa timestamp(10),\n\t\taaaa timestamp(10) without time zone,\n\t\taaaa timestamp(10) with time zone,\n\t\taaaa timestamptz,\n\t\taaaa tsquery,\n\t\taaaa tsvector,\n\t\taaaa txid_snapshot,\n\t\taaaa uuid,\n\t\taaaa xml\n\t);" = none
-- test/validator_postgresql_test.go:215
#guard val .postgres "create table users (\n\t\taaaa int,\n\t\taaaa bigin\n\t);" = some (3, "bigin")
-- test/validator_postgresql_test.go:221
#guard val .postgres "create table users (\n\t\taaaa int,\n\t\taaaa bit var (10)\n\t);" = some (3, "var")
-- test/validator_postgresql_test.go:227
#guard val .postgres "create table users (\n\t\taaaa int,\n\t\taaaa numeric ()\n\t);" = some (3, ")")
-- test/validator_postgresql_test.go:233
#guard val .postgres "create table users (\n\t\taaaa int,\n\t\taaaa numeric (10, '5')\n\t);" = some (3, "'5'")
-- test/validator_postgresql_test.go:239
#guard val .postgres "create table users (\n\t\taaaa int,\n\t\taaaa numeric (10, 5, 2)\n\t);" = some (3, ",")
-- test/validator_postgresql_test.go:245
#guard val .postgres "create table users (\n\t\taaaa int,\n\t\taaaa int (10)\n\t);" = some (3, "(")
-- test/validator_postgresql_test.go:251
#guard val .postgres "create table users (\n\t\taaaa int,\n\t\taaaa time (10, 2)\n\t);" = some (3, ",")
-- test/validator_postgresql_test.go:257
#guard val .postgres "create table users (\n\t\taaaa int,\n\t\taaaa time (10) without time\n\t);" = some (4, ")")
-- test/validator_postgresql_test.go:263
#guard val .postgres "create table users (\n\t\taaaa int,\n\t\taaaa time (10) with\n\t);" = some (4, ")")
-- test/validator_postgresql_test.go:269
#guard val .postgres "create table users (\n\t\taaaa int,\n\t\taaaa time (10) without time zon\n\t);" = some (3, "zon")
-- test/validator_postgresql_test.go:300
#guard val .postgres "create table users (\n\t\taaaa integer\n\t),\n\twith (aaaaa),\n\twithout oids,\n\ttablespace tsn,\n\tinherits (parent_table1, parent_table2),\n\tpartition by range (aaaa aaaa aaaa),\n\tpartition by list (aaaa aaaa aaaa),\n\tpartition by hash (aaaa aaaa aaaa),\n\tusing aaaa;\n\t\n\tcreate table users (\n\t\taaaa integer\n\t)\n\twith (aaaaa)\n\twithout oids\n\ttablespace tsn\n\tPARTITION BY RANGE ( { column_name | ( expression ) } [ COLLATE collation ] [ opclass ] [, ... ] )\n\tUSING aaaa;\n\t\n\tCREATE TABLE users (\n\t\taaaa integer\n\t)\n\tWITH (aaaaa)\n\tWITHOUT oids\n\tTABLESPACE tsn\n\tINHERITS ( parent_table [, ... ] ) ;" = none
-- test/validator_postgresql_test.go:308
#guard val .postgres "create table users (\n\t\taaaa integer\n\t)\n\twith (aaaaa),\n\twithout oids,\n\ttablespace tsn;" = none
-- test/validator_postgresql_test.go:316
#guard val .postgres "create table users (\n\t\taaaa integer\n\t),\n\twith aaaaa,\n\twithout oids,\n\ttablespaceeee tsn;" = some (4, "aaaaa")
-- test/validator_postgresql_test.go:324
#guard val .postgres "create table users (\n\t\taaaa integer\n\t),\n\twith (aaaaa),\n\twithout oids aaa,\n\ttablespace tsn;" = some (5, "aaa")
-- test/validator_postgresql_test.go:332
#guard val .postgres "create table users (\n\t\taaaa integer\n\t),\n\twith (aaaaa),\n\twithout oids,\n\ttablespaceeee tsn;" = some (6, "tablespaceeee")
-- test/validator_postgresql_test.go:371
#guard val .postgres "create table users (\n\t\taaaa integer,\n\t\tbbbb integer,\n\t\tcccc text,\n\t\tconstraint constraint_zzzz check(aaa),\n\t\tcheck(aaa()'bbb'(aaa)),\n\t\tcheck(aaa) no inherit,\n\t\tconstraint constraint_zzzz unique(aaaa),\n\t\tunique(aaaa),\n\t\tunique(aaaa, bbbb, \"cccc\"),\n\t\tunique(aaaa) include (bbbb, cccc),\n\t\tunique(aaaa) with (aaaa = value, bbbb = 1),\n\t\tunique(aaaa) using index tablespace tsn,\n\t\tconstraint constraint_zzzz primary key(aaaa),\n\t\tprimary key(aaaa),\n\t\tprimary key(aaaa, bbbb, \"cccc\"),\n\t\tprimary key(aaaa) include (bbbb, cccc),\n\t\tprimary key(aaaa) with (aaaa = value, bbbb = 1),\n\t\tprimary key(aaaa) using index tablespace tsn,\n\t\tconstraint constraint_zzzz exclude (exclude_element WITH operator, exclude_element WITH operator),\n\t\texclude (exclude_element WITH operator, exclude_element WITH operator),\n\t\texclude using index_method (exclude_element WITH operator),\n\t\texclude using index_method (exclude_element WITH operator) include (bbbb, cccc),\n\t\texclude using index_method (exclude_element WITH operator) include (bbbb, cccc) where (predicate),\n\t\tconstraint constraint_zzzz foreign key(aaaa) references reftable,\n\t\tforeign key(aaaa, bbbb, \"cccc\") references reftable,\n\t\tforeign key(aaaa, bbbb) references reftable (dddd, eeee),\n\t\tforeign key(aaaa) references reftable (dddd) match full,\n\t\tforeign key(aaaa) references reftable (dddd) match partial,\n\t\tforeign key(aaaa) references reftable (dddd) match simple,\n\t\tforeign key(aaaa) references reftable (dddd) match full on delete NO ACTION,\n\t\tforeign key(aaaa) references reftable (dddd) match full on update RESTRICT,\n\t\tforeign key(aaaa) references reftable (dddd) match full on update SET DEFAULT,\n\t\tforeign key(aaaa) references reftable (dddd) match full on delete CASCADE on update SET NULL\n\t);" = none
-- test/validator_postgresql_test.go:377
#guard val .postgres "create table users (\n\t\taaaa integer,\n\t\tconstraintttt check(aaaa)\n\t);" = some (3, "check")
-- test/validator_postgresql_test.go:383
#guard val .postgres "create table users (\n\t\taaaa integer,\n\t\tconstraint check check(aaaa)\n\t);" = some (3, "check")
-- test/validator_postgresql_test.go:389
#guard val .postgres "create table users (\n\t\taaaa integer,\n\t\tconstraint constraint_zzzz check a\n\t);" = some (3, "a")
-- test/validator_postgresql_test.go:395
#guard val .postgres "create table users (\n\t\taaaa integer,\n\t\tcheck(aaa) inherit,\n\t);" = some (3, "inherit")
-- test/validator_postgresql_test.go:401
#guard val .postgres "create table users (\n\t\taaaa integer,\n\t\tunique\n\t);" = some (4, ")")
-- test/validator_postgresql_test.go:407
#guard val .postgres "create table users (\n\t\taaaa integer,\n\t\tunique('aaaa')\n\t);" = some (3, "'aaaa'")
-- test/validator_postgresql_test.go:413
#guard val .postgres "create table users (\n\t\taaaa integer,\n\t\tprimary key\n\t);" = some (4, ")")
-- test/validator_postgresql_test.go:419
#guard val .postgres "create table users (\n\t\taaaa integer,\n\t\tprimary key('aaaa')\n\t);" = some (3, "'aaaa'")
-- test/validator_postgresql_test.go:470
#guard val .postgres "create table users (\n\t\taaaa integer,\n\t\taaaa integer constraint constraint_zzzz not null,\n\t\taaaa integer not null,\n\t\taaaa integer constraint constraint_zzzz null,\n\t\taaaa integer null,\n\t\taaaa integer constraint constraint_zzzz default 1,\n\t\taaaa integer default -1,\n\t\taaaa integer default 'a',\n\t\taaaa integer default null,\n\t\taaaa integer default true,\n\t\taaaa integer default false,\n\t\taaaa integer default current_date,\n\t\taaaa integer default current_time,\n\t\taaaa integer default current_timestamp,\n\t\taaaa integer constraint constraint_zzzz generated always as (generation_expr) stored,\n\t\taaaa integer generated always as (generation_expr) stored,\n\t\taaaa integer generated as identity,\n\t\taaaa integer generated as identity (sequence_options),\n\t\taaaa integer generated always as identity,\n\t\taaaa integer generated always as identity (sequence_options),\n\t\taaaa integer generated by default as identity,\n\t\taaaa integer generated by default as identity (sequence_options),\n\t\taaaa integer constraint constraint_zzzz check(aaa),\n\t\taaaa integer check(aaa()'bbb'(aaa)),\n\t\taaaa integer check(aaa) no inherit,\n\t\taaaa integer constraint constraint_zzzz unique,\n\t\taaaa integer unique,\n\t\taaaa integer unique include (bbbb, cccc),\n\t\taaaa integer unique with (aaaa = value, bbbb = 1),\n\t\taaaa integer unique using index tablespace tsn,\n\t\taaaa integer constraint constraint_zzzz primary key,\n\t\taaaa integer primary key,\n\t\taaaa integer primary key include (bbbb, cccc),\n\t\taaaa integer primary key with (aaaa = value, bbbb = 1),\n\t\taaaa integer primary key using index tablespace tsn,\n\t\taaaa integer constraint constraint_zzzz references reftable,\n\t\taaaa integer references reftable (bbbb),\n\t\taaaa integer references reftable (dddd),\n\t\taaaa integer references reftable (dddd) match full,\n\t\taaaa integer references reftable (dddd) match partial,\n\t\taaaa integer references reftable (dddd) match simple,\n\t\taaaa integer references reftable (dddd) match full on delete NO ACTION,\n\t\taaaa integer references reftable (dddd) match full on update RESTRICT,\n\t\taaaa integer references reftable (dddd) match full on update SET DEFAULT,\n\t\taaaa integer references reftable (dddd) match full on delete CASCADE on update SET NULL\n\t);" = none
-- test/validator_postgresql_test.go:475
#guard val .postgres "create table users (\n\t\taaaa integer null not null\n\t);" = some (2, "not")
-- test/validator_postgresql_test.go:480
#guard val .postgres "create table users (\n\t\taaaa integer not null null\n\t);" = some (2, "null")
-- test/validator_postgresql_test.go:485
#guard val .postgres "create table users (\n\t\taaaa integer default \"aaa\"\n\t);" = some (2, "\"aaa\"")
-- test/validator_postgresql_test.go:490
#guard val .postgres "create table users (\n\t\taaaa integer default aaa\n\t);" = some (2, "aaa")
-- test/validator_postgresql_test.go:495
#guard val .postgres "create table users (\n\t\taaaa integer default 'aaa\n\t);" = some (3, "<EOF>")
-- test/validator_postgresql_test.go:500
#guard val .postgres "create table users (\n\t\taaaa integer default - 2\n\t);" = some (2, "-")
-- test/validator_postgresql_test.go:505
#guard val .postgres "create table users (\n\t\taaaa integer unique unique\n\t);" = some (2, "unique")
-- test/validator_postgresql_test.go:510
#guard val .postgres "create table users (\n\t\taaaa integer primary key primary key\n\t);" = some (2, "primary")
-- test/validator_postgresql_test.go:541
#guard val .postgres "create table scm.users (\n\t\taaaa integer\n\t);\n\n\tCREATE TRIGGER update_timestamp\n\tAFTER UPDATE ON users\n\tFOR EACH ROW\n\tBEGIN\n\t\tUPDATE users SET updated_at = CURRENT_TIMESTAMP WHERE id = NEW.id;\n\tEND;\n\n\tCREATE VIEW temp_active_users AS\n\tSELECT id, name, email\n\tFROM users\n\tWHERE active = 1;\n\n\tCREATE INDEX idx_active_users_email ON users(email) WHERE active = 1;\n\tCREATE AGGREGATE aggregate_name (datatype) (\n\t\tSFUNC = state_function,\n\t\tSTYPE = state_data_type,\n\t\tFINALFUNC = final_function,\n\t\tINITCOND = initial_condition\n\t);\n\t\n\tcreate table scm.users2 (\n\t\taaaa integer\n\t);" = none
-- test/validator_postgresql_test.go:553
#guard val .postgres "create table scm.users (\n\t\taaaa integer\n\t);\n\n\tCREATE TRIGGE update_timestamp\n\tAFTER UPDATE ON users\n\tFOR EACH ROW\n\tBEGIN\n\t\tUPDATE users SET updated_at = CURRENT_TIMESTAMP WHERE id = NEW.id;\n\tEND;" = some (5, "TRIGGE")
-- test/validator_mysql_test.go:13
#guard val .mysql "" = none
-- test/validator_mysql_test.go:17
#guard val .mysql "CREAT TABLE IF NOT EXISTS users ();" = some (1, "CREAT")
-- test/validator_mysql_test.go:22
#guard val .mysql "CREATE TABLE IF NOT EXISTS users (\n\n\t);" = some (3, ")")
-- test/validator_mysql_test.go:25
#guard val .mysql "CREATE TABLE IF EXISTS users ();" = some (1, "EXISTS")
-- test/validator_mysql_test.go:28
#guard val .mysql "CREATE TABL IF NOT EXISTS users ();" = some (1, "TABL")
-- test/validator_mysql_test.go:31
#guard val .mysql "CREATE TABLE IF NOT EXISTS \"users ();" = some (1, "<EOF>")
-- test/validator_mysql_test.go:34
#guard val .mysql "CREATE TABLE IF NOT EXISTS `users ();" = some (1, "<EOF>")
-- test/validator_mysql_test.go:37
#guard val .mysql "CREATE TABLE IF NOT EXISTS AUTO_INCREMENT ();" = some (1, "AUTO_INCREMENT")
-- test/validator_mysql_test.go:42
#guard val .mysql "CREATE TABLE IF NOT EXISTS users (\n\t\taaaa INTEGER,\n\t);" = some (3, ")")
-- test/validator_mysql_test.go:54
#guard val .mysql "create table users (\n\t\taaaa integer, --comment\n\t\taaaa integer, /* commen\n\t\tcomment\n\t\tcomment\n\t\t*/\n\t\taaaa integer #aaa\n\t);" = none
-- test/validator_mysql_test.go:60
#guard val .mysql "create table users (\n\t\taaaa int,\n\t\taaaa integer -comment\n\t);" = some (3, "-comment")
-- test/validator_mysql_test.go:66
#guard val .mysql "create table users (\n\t\taaaa int,\n\t\taaaa integer / * aaa */\n\t);" = some (3, "*")
-- test/validator_mysql_test.go:72
#guard val .mysql "create table users (\n\t\taaaa int,\n\t\taaaa integer /* aaa\n\t);" = some (4, "<EOF>")
-- test/validator_mysql_test.go:78
#guard val .mysql "create table users (\n\t\taaaa int --aaa,\n\t\taaaa integer \n\t);" = some (3, "aaaa")
-- test/validator_mysql_test.go:85
#guard val .mysql "create table scm.users (\n\t\taaaa integer\n\t);" = none
-- test/validator_mysql_test.go:90
#guard val .mysql "create table scm users (\n\t\taaaa integer\n\t);" = some (1, "users")
-- test/validator_mysql_test.go:95
#guard val .mysql "create table scm,users (\n\t\taaaa integer\n\t);" = some (1, ",")
-- test/validator_mysql_test.go:100
#guard val .mysql "create table `scm`.`users` (`aaaa` integer);" = none
-- test/validator_mysql_test.go:105
#guard val .mysql "create table 'scm'.`users` (\n\t\t\"aaaa\" integer\n\t);" = some (1, "'scm'")
-- test/validator_mysql_test.go:110
#guard val .mysql "create table `scm`.'users' (\n\t\t\"aaaa\" integer\n\t);" = some (1, "'users'")
-- test/validator_mysql_test.go:115
#guard val .mysql "create table \"scm\".\"users\" (\n\t\t\"aaaa\" integer\n\t);" = some (1, "\"scm\"")
-- test/validator_mysql_test.go:120
#guard val .mysql "create table `scm`.`users` (\n\t\t'aaaa' integer\n\t);" = some (2, "'aaaa'")
-- test/validator_mysql_test.go:123
#guard val .mysql "create table `scm`.`users` (\"aaaa\" integer);" = some (1, "\"aaaa\"")
-- test/validator_mysql_test.go:128
#guard val .mysql "create table \"scm.users (\n\t\taaaa integer\n\t);" = some (3, "<EOF>")
-- test/validator_mysql_test.go:193
#guard val .mysql "create table users (\n\t\taaaa bool,\n\t\taaaa boolean,\n\t\taaaa integer,\n\t\taaaa integer (10),\n\t\taaaa int,\n\t\taaaa int (10),\n\t\taaaa smallint,\n\t\taaaa smallint (10),\n\t\taaaa tinyint,\n\t\taaaa tinyint (10),\n\t\taaaa mediumint,\n\t\taaaa mediumint (10),\n\t\taaaa bigint,\n\t\taaaa bigint (10),\n\t\taaaa numeric,\n\t\taaaa numeric(10),\n\t\taaaa numeric(10, 5),\n\t\taaaa decimal,\n\t\taaaa decimal(10),\n\t\taaaa decimal(10, 5),\n\t\taaaa float,\n\t\taaaa float (10),\n\t\taaaa float (10, 5),\n\t\taaaa real,\n\t\taaaa real (10),\n\t\taaaa real (10, 5),\n\t\taaaa double,\n\t\taaaa double (10),\n\t\taaaa double (10, 5),\n\t\taaaa bit,\n\t\taaaa bit (10),\n\t\taaaa date,\n\t\taaaa datetime,\n\t\taaaa datetime (3),\n\t\taaaa timestamp,\n\t\taaaa timestamp (3),\n\t\taaaa time,\n\t\taaaa time (3),\n\t\taaaa year,\n\t\taaaa year (4),\n\t\taaaa char,\n\t\taaaa char(10),\n\t\taaaa varchar,\n\t\taaaa varchar(10),\n\t\taaaa binary (100),\n\t\taaaa varbinary (100),\n\t\taaaa blob,\n\t\taaaa blob (10),\n\t\taaaa text,\n\t\taaaa text (10),\n\t\taaaa geometry,\n\t\taaaa point,\n\t\taaaa linestring,\n\t\taaaa polygon,\n\t\taaaa multipoint,\n\t\taaaa multilinestring,\n\t\taaaa multipolygon,\n\t\taaaa geometrycollection,\n\t\taaaa json\n\t);" = none
-- test/validator_mysql_test.go:199
#guard val .mysql "create table users (\n\t\taaaa int,\n\t\taaaa bigin\n\t);" = some (3, "bigin")
-- test/validator_mysql_test.go:205
#guard val .mysql "create table users (\n\t\taaaa int,\n\t\taaaa bit var (10)\n\t);" = some (3, "var")
-- test/validator_mysql_test.go:211
#guard val .mysql "create table users (\n\t\taaaa int,\n\t\taaaa numeric ()\n\t);" = some (3, ")")
-- test/validator_mysql_test.go:217
#guard val .mysql "create table users (\n\t\taaaa int,\n\t\taaaa numeric (10, '5')\n\t);" = some (3, "'5'")
-- test/validator_mysql_test.go:223
#guard val .mysql "create table users (\n\t\taaaa int,\n\t\taaaa numeric (10, 5, 2)\n\t);" = some (3, ",")
-- test/validator_mysql_test.go:229
#guard val .mysql "create table users (\n\t\taaaa int,\n\t\taaaa int (10 , 5)\n\t);" = some (3, ",")
-- test/validator_mysql_test.go:235
#guard val .mysql "create table users (\n\t\taaaa int,\n\t\taaaa time (10, 2)\n\t);" = some (3, ",")
-- test/validator_mysql_test.go:360
#guard val .mysql "create table users (\n\t\taaaa integer\n\t)\n\tAUTOEXTEND_SIZE = 1\n\tAUTO_INCREMENT = 1\n\tAVG_ROW_LENGTH = 1\n\tDEFAULT CHARACTER SET = charset_zzzz\n\tCHARACTER SET = charset_zzzz\n\tCHECKSUM = 0\n\tCHECKSUM = 1\n\tDEFAULT COLLATE = collation_zzzz\n\tCOLLATE = collation_zzzz\n\tCOMMENT = 'string'\n\tCOMPRESSION = 'ZLIB'\n\tCOMPRESSION = 'LZ4'\n\tCOMPRESSION = 'NONE'\n\tCONNECTION = 'connect_string'\n\tDATA DIRECTORY = 'absolute path to directory'\n\tINDEX DIRECTORY = 'absolute path to directory'\n\tDELAY_KEY_WRITE = 0\n\tDELAY_KEY_WRITE = 1\n\tENCRYPTION = 'Y' \n\tENCRYPTION = 'N'\n\tENGINE = engine_zzzz\n\tENGINE_ATTRIBUTE = 'string'\n\tINSERT_METHOD = NO\n\tINSERT_METHOD = FIRST\n\tINSERT_METHOD = LAST\n\tKEY_BLOCK_SIZE = 1\n\tMAX_ROWS = 1\n\tMIN_ROWS = 1\n\tPACK_KEYS = 0\n\tPACK_KEYS = 1\n\tPACK_KEYS = DEFAULT\n\tPASSWORD = 'string'\n\tROW_FORMAT = DEFAULT \n\tROW_FORMAT = DYNAMIC\n\tROW_FORMAT = FIXED\n\tROW_FORMAT = COMPRESSED\n\tROW_FORMAT = REDUNDANT\n\tROW_FORMAT = COMPACT\n\tSECONDARY_ENGINE_ATTRIBUTE = 'string'\n\tSTATS_AUTO_RECALC = DEFAULT \n\tSTATS_AUTO_RECALC = 0\n\tSTATS_AUTO_RECALC = 1\n\tSTATS_PERSISTENT = DEFAULT\n\tSTATS_PERSISTENT = 0\n\tSTATS_PERSISTENT = 1\n\tSTATS_SAMPLE_PAGES = 1\n\tTABLESPACE tablespace_zzzz\n\tTABLESPACE tablespace_zzzz STORAGE DISK\n\tTABLESPACE tablespace_zzzz STORAGE MEMORY\n\tUNION = (tbl_yyyy, tbl_zzzz);\n\n\tcreate table users (\n\t\taaaa integer\n\t)\n\tAUTOEXTEND_SIZE 1\n\tAUTO_INCREMENT 1\n\tAVG_ROW_LENGTH 1\n\tDEFAULT CHARACTER SET charset_zzzz\n\tCHARACTER SET charset_zzzz\n\tCHECKSUM 0\n\tCHECKSUM 1\n\tDEFAULT COLLATE collation_zzzz\n\tCOLLATE collation_zzzz\n\tCOMMENT 'string'\n\tCOMPRESSION 'ZLIB'\n\tCOMPRESSION 'LZ4'\n\tCOMPRESSION 'NONE'\n\tCONNECTION 'connect_string'\n\tDATA DIRECTORY 'absolute path to directory'\n\tINDEX DIRECTORY 'absolute path to directory'\n\tDELAY_KEY_WRITE 0\n\tDELAY_KEY_WRITE 1\n\tENCRYPTION 'Y' \n\tENCRYPTION 'N'\n\tENGINE engine_zzzz\n\tENGINE_ATTRIBUTE 'string'\n\tINSERT_METHOD NO\n\tINSERT_METHOD FIRST\n\tINSERT_METHOD LAST\n\tKEY_BLOCK_SIZE 1\n\tMAX_ROWS 1\n\tMIN_ROWS 1\n\tPACK_KEYS 0\n\tPACK_KEYS 1\n\tPACK_KEYS DEFAULT\n\tPASSWORD 'string'\n\tROW_FORMAT DEFAULT \n\tROW_FORMAT DYNAMIC\n\tROW_FORMAT FIXED\n\tROW_FORMAT COMPRESSED\n\tROW_FORMAT REDUNDANT\n\tROW_FORMAT COMPACT\n\tSECONDARY_ENGINE_ATTRIBUTE 'string'\n\tSTATS_AUTO_RECALC DEFAULT \n\tSTATS_AUTO_RECALC 0\n\tSTATS_AUTO_RECALC 1\n\tSTATS_PERSISTENT DEFAULT\n\tSTATS_PERSISTENT 0\n\tSTATS_PERSISTENT 1\n\tSTATS_SAMPLE_PAGES = 1\n\tTABLESPACE tablespace_zzzz\n\tTABLESPACE tablespace_zzzz STORAGE DISK\n\tTABLESPACE tablespace_zzzz STORAGE MEMORY\n\tUNION (tbl_yyyy, tbl_zzzz);\n\n\tcreate table users (\n\t\taaaa integer\n\t),\n\tAUTOEXTEND_SIZE = 1,\n\tAUTO_INCREMENT = 1,\n\tAVG_ROW_LENGTH = 1,\n\tDEFAULT CHARACTER SET = charset_zzzz,\n\tCHARACTER SET = charset_zzzz;\n\t\n\tcreate table users (\n\t\taaaa integer\n\t)\n\tAUTOEXTEND_SIZE = 1 AUTO_INCREMENT = 1 AVG_ROW_LENGTH = 1 DEFAULT CHARACTER SET = charset_zzzz CHARACTER SET = charset_zzzz;" = none
-- test/validator_mysql_test.go:430
#guard val .mysql "create table users (\n\t\taaaa integer,\n\t\tbbbb integer,\n\t\tcccc text,\n\t\tindex index_zzzz using btree (aaaa (10) asc, bbbb (10) desc, cccc (10), dddd) KEY_BLOCK_SIZE = 'value' COMMENT 'string',\n\t\tindex index_zzzz using hash ((expr(zzzz)), (expr(zzzz)) asc, (expr(zzzz)) desc),\n\t\tindex index_zzzz using hash (aaaa) KEY_BLOCK_SIZE 1 WITH PARSER parser_zzzz VISIBLE INVISIBLE ENGINE_ATTRIBUTE = 'string' SECONDARY_ENGINE_ATTRIBUTE = 'string',\n\t\tindex index_zzzz (aaaa (10)) using hash,\n\t\tindex index_zzzz (aaaa (10)),\n\t\tindex index_zzzz (aaaa),\n\t\tindex (aaaa (10)) using hash,\n\t\tindex (aaaa (10)),\n\t\tkey index_zzzz using btree (aaaa (10) asc, bbbb (10) desc, cccc (10), dddd) KEY_BLOCK_SIZE = 'value' COMMENT 'string',\n\t\tkey index_zzzz using hash ((expr(zzzz)), (expr(zzzz)) asc, (expr(zzzz)) desc),\n\t\tkey index_zzzz using hash (aaaa) KEY_BLOCK_SIZE 1 WITH PARSER parser_zzzz VISIBLE INVISIBLE ENGINE_ATTRIBUTE = 'string' SECONDARY_ENGINE_ATTRIBUTE = 'string',\n\t\tkey index_zzzz (aaaa (10)) using hash,\n\t\tkey index_zzzz (aaaa (10)),\n\t\tkey index_zzzz (aaaa),\n\t\tkey (aaaa (10)) using hash,\n\t\tkey (aaaa (10)),\n\t\tfulltext index index_zzzz (aaaa (10)) KEY_BLOCK_SIZE = 'value',\n\t\tfulltext key index_zzzz (aaaa (10)) KEY_BLOCK_SIZE = 'value',\n\t\tfulltext index (aaaa (10)) KEY_BLOCK_SIZE = 'value',\n\t\tfulltext key (aaaa (10)) KEY_BLOCK_SIZE = 'value',\n\t\tfulltext index (aaaa (10)),\n\t\tfulltext key (aaaa (10)),\n\t\tspatial index index_zzzz (aaaa (10)) KEY_BLOCK_SIZE = 'value',\n\t\tspatial key index_zzzz (aaaa (10)) KEY_BLOCK_SIZE = 'value',\n\t\tspatial index (aaaa (10)) KEY_BLOCK_SIZE = 'value',\n\t\tspatial key (aaaa (10)) KEY_BLOCK_SIZE = 'value',\n\t\tspatial index (aaaa (10)),\n\t\tspatial key (aaaa (10)),\n\t\tconstraint constraint_zzzz primary key(aaaa),\n\t\tconstraint primary key(aaaa),\n\t\tprimary key using btree (aaaa (10) asc, bbbb (10) desc, cccc (10), dddd) KEY_BLOCK_SIZE = 'value' COMMENT 'string',\n\t\tprimary key using btree (aaaa (10) asc, bbbb (10) desc, cccc (10)),\n\t\tprimary key (aaaa (10) asc, bbbb (10) desc, cccc (10)),\n\t\tprimary key (aaaa, bbbb, cccc),\n\t\tconstraint constraint_zzzz unique (aaaa),\n\t\tconstraint unique (aaaa),\n\t\tunique index index_zzzz using btree (aaaa (10) asc, bbbb (10) desc, cccc (10), dddd) KEY_BLOCK_SIZE = 'value' COMMENT 'string',\n\t\tunique index index_zzzz using hash ((expr(zzzz)), (expr(zzzz)) asc, (expr(zzzz)) desc),\n\t\tunique index index_zzzz using hash (aaaa) KEY_BLOCK_SIZE 1 WITH PARSER parser_zzzz VISIBLE INVISIBLE ENGINE_ATTRIBUTE = 'string' SECONDARY_ENGINE_ATTRIBUTE ='string',\n\t\tunique index index_zzzz (aaaa (10)) using hash,\n\t\tunique index index_zzzz (aaaa (10)),\n\t\tunique index index_zzzz (aaaa),\n\t\tunique index (aaaa (10)) using hash,\n\t\tunique index (aaaa (10)),\n\t\tunique key (aaaa (10)),\n\t\tunique (aaaa, bbbb, cccc),\n\t\tforeign key(aaaa, bbbb, cccc) references reftable (aaaa (10) asc, bbbb (10) desc, cccc (10), dddd),\n\t\tforeign key(aaaa, bbbb, dddd) references reftable ((expr(zzzz)), (expr(zzzz)) asc, (expr(zzzz)) desc),\n\t\tforeign key(aaaa) references reftable (dddd) match full,\n\t\tforeign key(aaaa) references reftable (dddd) match partial,\n\t\tforeign key(aaaa) references reftable (dddd) match simple,\n\t\tforeign key(aaaa) references reftable (dddd) match full on delete NO ACTION,\n\t\tforeign key(aaaa) references reftable (dddd) match full on update RESTRICT,\n\t\tforeign key(aaaa) references reftable (dddd) match full on update SET DEFAULT,\n\t\tforeign key(aaaa) references reftable (dddd) match full on delete CASCADE on update SET NULL,\n\t\tforeign key index_zzzz (aaaa) references reftable (dddd),\n\t\tconstraint constraint_zzzz check(aaa),\n\t\tconstraint check(aaa),\n\t\tcheck(aaa()'bbb'(aaa)),\n\t\tcheck(aaa) not enforced,\n\t\tcheck(aaa) enforced\n\t);" = none
-- test/validator_mysql_test.go:436
#guard val .mysql "create table users (\n\t\taaaa integer,\n\t\tconstraintttt check(aaaa)\n\t);" = some (3, "check")
-- test/validator_mysql_test.go:442
#guard val .mysql "create table users (\n\t\taaaa integer,\n\t\tconstraint check check(aaaa)\n\t);" = some (3, "check")
-- test/validator_mysql_test.go:448
#guard val .mysql "create table users (\n\t\taaaa integer,\n\t\tconstraint constraint_zzzz check a\n\t);" = some (3, "a")
-- test/validator_mysql_test.go:454
#guard val .mysql "create table users (\n\t\taaaa integer,\n\t\tcheck(aaa) inherit,\n\t);" = some (3, "inherit")
-- test/validator_mysql_test.go:460
#guard val .mysql "create table users (\n\t\taaaa integer,\n\t\tunique\n\t);" = some (4, ")")
-- test/validator_mysql_test.go:466
#guard val .mysql "create table users (\n\t\taaaa integer,\n\t\tunique('aaaa')\n\t);" = some (3, "'aaaa'")
-- test/validator_mysql_test.go:472
#guard val .mysql "create table users (\n\t\taaaa integer,\n\t\tprimary key\n\t);" = some (4, ")")
-- test/validator_mysql_test.go:478
#guard val .mysql "create table users (\n\t\taaaa integer,\n\t\tprimary key('aaaa')\n\t);" = some (3, "'aaaa'")
-- test/validator_mysql_test.go:538
#guard val .mysql "create table users (\n\t\taaaa integer,\n\t\taaaa integer not null,\n\t\taaaa integer null,\n\t\taaaa integer default -1,\n\t\taaaa integer default 'a',\n\t\taaaa integer default \"a\",\n\t\taaaa integer default null,\n\t\taaaa integer default true,\n\t\taaaa integer default false,\n\t\taaaa date default current_date,\n\t\taaaa date default current_date on update current_date,\n\t\taaaa time default current_time,\n\t\taaaa time default current_time on update current_time,\n\t\taaaa timestamp default current_timestamp,\n\t\taaaa timestamp default current_timestamp on update current_timestamp,\n\t\taaaa integer default (expr(aaa)),\n\t\taaaa integer visible,\n\t\taaaa integer invisible,\n\t\taaaa integer auto_increment,\n\t\taaaa integer unique,\n\t\taaaa integer unique key,\n\t\taaaa integer primary key,\n\t\taaaa integer key,\n\t\taaaa integer comment 'string',\n\t\taaaa integer comment \"string\",\n\t\taaaa integer collate collation_zzzz,\n\t\taaaa integer column_format fixed,\n\t\taaaa integer column_format dynamic,\n\t\taaaa integer column_format default,\n\t\taaaa integer engine_attribute = 'string',\n\t\taaaa integer engine_attribute 'string',\n\t\taaaa integer secondary_engine_attribute = 'string',\n\t\taaaa integer secondary_engine_attribute 'string',\n\t\taaaa integer storage disk,\n\t\taaaa integer storage memory,\n\t\taaaa integer references reftable (dddd) match full,\n\t\taaaa integer references reftable (dddd) match partial,\n\t\taaaa integer references reftable (dddd) match simple,\n\t\taaaa integer references reftable (dddd) match full on delete NO ACTION,\n\t\taaaa integer references reftable (dddd) match full on update RESTRICT,\n\t\taaaa integer references reftable (dddd) match full on update SET DEFAULT,\n\t\taaaa integer references reftable (dddd) match full on delete CASCADE on update SET NULL,\n\t\taaaa integer references reftable (dddd),\n\t\taaaa integer constraint constraint_zzzz check(aaa),\n\t\taaaa integer constraint check(aaa),\n\t\taaaa integer check(aaa()'bbb'(aaa)),\n\t\taaaa integer check(aaa) not enforced,\n\t\taaaa integer check(aaa) enforced,\n\t\taaaa integer generated always as (generation_expr),\n\t\taaaa integer as (generation_expr),\n\t\taaaa integer virtual,\n\t\taaaa integer stored,\n\t\taaaa integer virtual,\n\t\taaaa integer not null default -1 visible key\n\t);" = none
-- test/validator_mysql_test.go:543
#guard val .mysql "create table users (\n\t\taaaa integer null not null\n\t);" = some (2, "not")
-- test/validator_mysql_test.go:548
#guard val .mysql "create table users (\n\t\taaaa integer not null null\n\t);" = some (2, "null")
-- test/validator_mysql_test.go:551
#guard val .mysql "create table users (aaaa integer default `aaa`);" = some (1, "`aaa`")
-- test/validator_mysql_test.go:556
#guard val .mysql "create table users (\n\t\taaaa integer default aaa\n\t);" = some (2, "aaa")
-- test/validator_mysql_test.go:561
#guard val .mysql "create table users (\n\t\taaaa integer default 'aaa\n\t);" = some (3, "<EOF>")
-- test/validator_mysql_test.go:566
#guard val .mysql "create table users (\n\t\taaaa integer default - 2\n\t);" = some (2, "-")
-- test/validator_mysql_test.go:571
#guard val .mysql "create table users (\n\t\taaaa integer unique unique\n\t);" = some (2, "unique")
-- test/validator_mysql_test.go:576
#guard val .mysql "create table users (\n\t\taaaa integer primary key primary key\n\t);" = some (2, "primary")
-- test/validator_mysql_test.go:604
#guard val .mysql "create table scm.users (\n\t\taaaa integer\n\t);\n\n\tCREATE TRIGGER update_timestamp\n\tAFTER UPDATE ON users\n\tFOR EACH ROW\n\tBEGIN\n\t\tUPDATE users SET updated_at = CURRENT_TIMESTAMP WHERE id = NEW.id;\n\tEND;\n\n\tCREATE VIEW temp_active_users AS\n\tSELECT id, name, email\n\tFROM users\n\tWHERE active = 1;\n\n\tCREATE INDEX idx_active_users_email ON users(email) WHERE active = 1;\n\tCREATE DATABASE LINK dblink_name\n\tCONNECT TO user_name IDENTIFIED BY password\n\tUSING 'service_name';\n\t\n\tcreate table scm.users2 (\n\t\taaaa integer\n\t);" = none
-- test/validator_mysql_test.go:616
#guard val .mysql "create table scm.users (\n\t\taaaa integer\n\t);\n\n\tCREATE TRIGGE update_timestamp\n\tAFTER UPDATE ON users\n\tFOR EACH ROW\n\tBEGIN\n\t\tUPDATE users SET updated_at = CURRENT_TIMESTAMP WHERE id = NEW.id;\n\tEND;" = some (5, "TRIGGE")
-- test/converter_sqlite_test.go:475
#guard conv .sqlite "CREATE TABLE IF NOT EXISTS sch.table_name (\n\t\tcolumn_name1 INTEGER PRIMARY KEY AUTOINCREMENT,\n\t\tcolumn_name2 NUMERIC NOT NULL UNIQUE,\n\t\tcolumn_name3 REAL NOT NULL DEFAULT 10,\n\t\t\"column_name4\" NONE REFERENCES table2(col_name),\n\t\tcolumn_name5 TEXT NOT NULL COLLATE BINARY,\n\t\tcreated_at TEXT NOT NULL DEFAULT (DATETIME('now', 'localtime')),\n\t\tupdated_at TEXT NOT NULL DEFAULT (DATETIME('now', 'localtime'))\n\t);\n\t\n\tcreate table \"scm\".\"table_name2\" (\n\t\tcolumn_name1 integer primary key asc autoincrement,\n\t\tcolumn_name2 numeric not null on conflict fail unique,\n\t\tcolumn_name3 real default -10,\n\t\tcolumn_name4 none default true,\n\t\tcolumn_name5 text default false,\n\t\tcolumn_name6 text default null,\n\t\tcolumn_name7 text default (DATETIME('now', 'localtime')),\n\t\tcolumn_name8 text default 'AAA',\n\t\tcolumn_name9 text check (aaa(aa(a)a())aa),\n\t\tcolumn_name10 text,\n\t\tconstraint const_name foreign key (a, b, \"c\") references bbb(ccc) on delete set null,\n\t\tprimary key (column_name1, column_name2),\n\t\tunique (column_name3, column_name4)\n\t);\n\t" [
  ⟨(S "sch"), (S "table_name"), true, [⟨(S "column_name1"), ⟨(S "INTEGER"), 0, 0⟩,
      ⟨(S ""), true, false, false, true, .nil, (S ""), (S ""), ⟨(S ""), none⟩⟩⟩,
      ⟨(S "column_name2"), ⟨(S "NUMERIC"), 0, 0⟩,
      ⟨(S ""), false, true, true, false, .nil, (S ""), (S ""), ⟨(S ""), none⟩⟩⟩,
      ⟨(S "column_name3"), ⟨(S "REAL"), 0, 0⟩,
      ⟨(S ""), false, false, true, false, (.num (S "10")), (S ""), (S ""), ⟨(S ""), none⟩⟩⟩,
      ⟨(S "column_name4"), ⟨(S "NONE"), 0, 0⟩,
      ⟨(S ""), false, false, false, false, .nil, (S ""), (S ""), ⟨(S "table2"), some [(S "col_name")]⟩⟩⟩,
      ⟨(S "column_name5"), ⟨(S "TEXT"), 0, 0⟩,
      ⟨(S ""), false, false, true, false, .nil, (S ""), (S "BINARY"), ⟨(S ""), none⟩⟩⟩,
      ⟨(S "created_at"), ⟨(S "TEXT"), 0, 0⟩,
      ⟨(S ""), false, false, true, false, (.str (S "(DATETIME('now','localtime'))")), (S ""), (S ""), ⟨(S ""), none⟩⟩⟩,
      ⟨(S "updated_at"), ⟨(S "TEXT"), 0, 0⟩,
      ⟨(S ""), false, false, true, false, (.str (S "(DATETIME('now','localtime'))")), (S ""), (S ""), ⟨(S ""), none⟩⟩⟩],
    ⟨[], [], [], []⟩⟩,
  ⟨(S "scm"), (S "table_name2"), false, [⟨(S "column_name1"), ⟨(S "INTEGER"), 0, 0⟩,
      ⟨(S ""), true, false, false, true, .nil, (S ""), (S ""), ⟨(S ""), none⟩⟩⟩,
      ⟨(S "column_name2"), ⟨(S "NUMERIC"), 0, 0⟩,
      ⟨(S ""), false, true, true, false, .nil, (S ""), (S ""), ⟨(S ""), none⟩⟩⟩,
      ⟨(S "column_name3"), ⟨(S "REAL"), 0, 0⟩,
      ⟨(S ""), false, false, false, false, (.num (S "-10")), (S ""), (S ""), ⟨(S ""), none⟩⟩⟩,
      ⟨(S "column_name4"), ⟨(S "NONE"), 0, 0⟩,
      ⟨(S ""), false, false, false, false, (.bool true), (S ""), (S ""), ⟨(S ""), none⟩⟩⟩,
      ⟨(S "column_name5"), ⟨(S "TEXT"), 0, 0⟩,
      ⟨(S ""), false, false, false, false, (.bool false), (S ""), (S ""), ⟨(S ""), none⟩⟩⟩,
      ⟨(S "column_name6"), ⟨(S "TEXT"), 0, 0⟩,
      ⟨(S ""), false, false, false, false, .nil, (S ""), (S ""), ⟨(S ""), none⟩⟩⟩,
      ⟨(S "column_name7"), ⟨(S "TEXT"), 0, 0⟩,
      ⟨(S ""), false, false, false, false, (.str (S "(DATETIME('now','localtime'))")), (S ""), (S ""), ⟨(S ""), none⟩⟩⟩,
      ⟨(S "column_name8"), ⟨(S "TEXT"), 0, 0⟩,
      ⟨(S ""), false, false, false, false, (.str (S "AAA")), (S ""), (S ""), ⟨(S ""), none⟩⟩⟩,
      ⟨(S "column_name9"), ⟨(S "TEXT"), 0, 0⟩,
      ⟨(S ""), false, false, false, false, .nil, (S "(aaa(aa(a)a())aa)"), (S ""), ⟨(S ""), none⟩⟩⟩,
      ⟨(S "column_name10"), ⟨(S "TEXT"), 0, 0⟩,
      ⟨(S ""), false, false, false, false, .nil, (S ""), (S ""), ⟨(S ""), none⟩⟩⟩],
    ⟨[⟨(S ""), [(S "column_name1"), (S "column_name2")]⟩], [⟨(S ""), [(S "column_name3"), (S "column_name4")]⟩], [], [⟨(S "const_name"), [(S "a"), (S "b"), (S "\"c\"")], ⟨(S "bbb"), some [(S "ccc")]⟩⟩]⟩⟩]
-- test/converter_postgresql_test.go:665
#guard conv .postgres "create table \"scm\".\"test_table\" (\n\t\taaa1 bit,\n\t\taaa2 bit(10),\n\t\taaa3 bit varying,\n\t\taaa4 bit varying(10),\n\t\taaa5 varbit,\n\t\taaa6 varbit(10),\n\t\taaa7 boolean,\n\t\taaa8 bool,\n\t\taaa9 box,\n\t\taa10 bytea constraint constraint_zzzz not null default 1,\n\t\taa11 character default 'aaa',\n\t\taa12 character(10) default null,\n\t\taa13 char default current_timestamp,\n\t\taa14 char(10) default true,\n\t\taa15 character varying,\n\t\taa16 character varying(10),\n\t\taa17 numeric,\n\t\taa18 numeric(10),\n\t\taa19 numeric(10, 5),\n\t\taa20 decimal references reftable (dddd),\n\t\taa21 decimal(10) check(aaa()'bbb'(aaa)),\n\t\taa22 decimal(10, 5) generated always as (generation_expr) stored,\n\t\t\"aa23\" time(10) without time zone,\n\t\taa24 time(10) with time zone,\n\t\tprimary key(aaa1, aaa2, aaa3) using index tablespace tsn,\n\t\tconstraint aaaaa primary key(aaa1, aaa2, aaa3) using index tablespace tsn,\n\t\tunique(aaa4, aaa5, aaa6) include (bbbb, cccc),\n\t\tconstraint bbbbb unique(aaa4, aaa5, aaa6) include (bbbb, cccc),\n\t\tconstraint constraint_zzzz exclude (exclude_element WITH operator, exclude_element WITH operator)\n\t)\n\tWITH (aaaaa)\n\tWITHOUT oids\n\tTABLESPACE tsn;\n\t\n\tcreate table if not exists test_table2 (\n\t\taaa1 integer\n\t);" [
  ⟨(S "scm"), (S "test_table"), false, [⟨(S "aaa1"), ⟨(S "BIT"), 0, 0⟩,
      ⟨(S ""), false, false, false, false, .nil, (S ""), (S ""), ⟨(S ""), none⟩⟩⟩,
      ⟨(S "aaa2"), ⟨(S "BIT"), 10, 0⟩,
      ⟨(S ""), false, false, false, false, .nil, (S ""), (S ""), ⟨(S ""), none⟩⟩⟩,
      ⟨(S "aaa3"), ⟨(S "VARBIT"), 0, 0⟩,
      ⟨(S ""), false, false, false, false, .nil, (S ""), (S ""), ⟨(S ""), none⟩⟩⟩,
      ⟨(S "aaa4"), ⟨(S "VARBIT"), 10, 0⟩,
      ⟨(S ""), false, false, false, false, .nil, (S ""), (S ""), ⟨(S ""), none⟩⟩⟩,
      ⟨(S "aaa5"), ⟨(S "VARBIT"), 0, 0⟩,
      ⟨(S ""), false, false, false, false, .nil, (S ""), (S ""), ⟨(S ""), none⟩⟩⟩,
      ⟨(S "aaa6"), ⟨(S "VARBIT"), 10, 0⟩,
      ⟨(S ""), false, false, false, false, .nil, (S ""), (S ""), ⟨(S ""), none⟩⟩⟩,
      ⟨(S "aaa7"), ⟨(S "BOOLEAN"), 0, 0⟩,
      ⟨(S ""), false, false, false, false, .nil, (S ""), (S ""), ⟨(S ""), none⟩⟩⟩,
      ⟨(S "aaa8"), ⟨(S "BOOL"), 0, 0⟩,
      ⟨(S ""), false, false, false, false, .nil, (S ""), (S ""), ⟨(S ""), none⟩⟩⟩,
      ⟨(S "aaa9"), ⟨(S "BOX"), 0, 0⟩,
      ⟨(S ""), false, false, false, false, .nil, (S ""), (S ""), ⟨(S ""), none⟩⟩⟩,
      ⟨(S "aa10"), ⟨(S "BYTEA"), 0, 0⟩,
      ⟨(S "constraint_zzzz"), false, false, true, false, (.num (S "1")), (S ""), (S ""), ⟨(S ""), none⟩⟩⟩,
      ⟨(S "aa11"), ⟨(S "CHARACTER"), 0, 0⟩,
      ⟨(S ""), false, false, false, false, (.str (S "aaa")), (S ""), (S ""), ⟨(S ""), none⟩⟩⟩,
      ⟨(S "aa12"), ⟨(S "CHARACTER"), 10, 0⟩,
      ⟨(S ""), false, false, false, false, .nil, (S ""), (S ""), ⟨(S ""), none⟩⟩⟩,
      ⟨(S "aa13"), ⟨(S "CHAR"), 0, 0⟩,
      ⟨(S ""), false, false, false, false, (.str (S "current_timestamp")), (S ""), (S ""), ⟨(S ""), none⟩⟩⟩,
      ⟨(S "aa14"), ⟨(S "CHAR"), 10, 0⟩,
      ⟨(S ""), false, false, false, false, (.bool true), (S ""), (S ""), ⟨(S ""), none⟩⟩⟩,
      ⟨(S "aa15"), ⟨(S "VARCHAR"), 0, 0⟩,
      ⟨(S ""), false, false, false, false, .nil, (S ""), (S ""), ⟨(S ""), none⟩⟩⟩,
      ⟨(S "aa16"), ⟨(S "VARCHAR"), 10, 0⟩,
      ⟨(S ""), false, false, false, false, .nil, (S ""), (S ""), ⟨(S ""), none⟩⟩⟩,
      ⟨(S "aa17"), ⟨(S "NUMERIC"), 0, 0⟩,
      ⟨(S ""), false, false, false, false, .nil, (S ""), (S ""), ⟨(S ""), none⟩⟩⟩,
      ⟨(S "aa18"), ⟨(S "NUMERIC"), 10, 0⟩,
      ⟨(S ""), false, false, false, false, .nil, (S ""), (S ""), ⟨(S ""), none⟩⟩⟩,
      ⟨(S "aa19"), ⟨(S "NUMERIC"), 10, 5⟩,
      ⟨(S ""), false, false, false, false, .nil, (S ""), (S ""), ⟨(S ""), none⟩⟩⟩,
      ⟨(S "aa20"), ⟨(S "DECIMAL"), 0, 0⟩,
      ⟨(S ""), false, false, false, false, .nil, (S ""), (S ""), ⟨(S "reftable"), some [(S "dddd")]⟩⟩⟩,
      ⟨(S "aa21"), ⟨(S "DECIMAL"), 10, 0⟩,
      ⟨(S ""), false, false, false, false, .nil, (S "(aaa()'bbb'(aaa))"), (S ""), ⟨(S ""), none⟩⟩⟩,
      ⟨(S "aa22"), ⟨(S "DECIMAL"), 10, 5⟩,
      ⟨(S ""), false, false, false, false, .nil, (S ""), (S ""), ⟨(S ""), none⟩⟩⟩,
      ⟨(S "aa23"), ⟨(S "TIME"), 10, 0⟩,
      ⟨(S ""), false, false, false, false, .nil, (S ""), (S ""), ⟨(S ""), none⟩⟩⟩,
      ⟨(S "aa24"), ⟨(S "TIME"), 10, 0⟩,
      ⟨(S ""), false, false, false, false, .nil, (S ""), (S ""), ⟨(S ""), none⟩⟩⟩],
    ⟨[⟨(S ""), [(S "aaa1"), (S "aaa2"), (S "aaa3")]⟩, ⟨(S "aaaaa"), [(S "aaa1"), (S "aaa2"), (S "aaa3")]⟩], [⟨(S ""), [(S "aaa4"), (S "aaa5"), (S "aaa6")]⟩, ⟨(S "bbbbb"), [(S "aaa4"), (S "aaa5"), (S "aaa6")]⟩], [], []⟩⟩,
  ⟨(S ""), (S "test_table2"), true, [⟨(S "aaa1"), ⟨(S "INTEGER"), 0, 0⟩,
      ⟨(S ""), false, false, false, false, .nil, (S ""), (S ""), ⟨(S ""), none⟩⟩⟩],
    ⟨[], [], [], []⟩⟩]
-- test/converter_mysql_test.go:832
#guard conv .mysql "create table test_table (\n\t\taaa1 integer primary key auto_increment,\n\t\taaa2 integer (10) key visible not null,\n\t\taaa3 int (10) not null default -1,\n\t\taaa4 smallint (10) null default null,\n\t\taaa5 tinyint (10) default 'a',\n\t\taaa6 mediumint (10) default \"a\",\n\t\taaa7 bigint (10) default true,\n\t\taaa8 numeric(10) default (expr(aaa)),\n\t\taaa9 numeric(10, 5) unique comment 'string',\n\t\taa10 decimal(10) unique key collate collation_zzzz,\n\t\taa11 decimal(10, 5) column_format fixed,\n\t\taa12 float (10) engine_attribute = 'string',\n\t\taa13 float (10, 5) engine_attribute 'string',\n\t\taa14 real (10) secondary_engine_attribute = 'string',\n\t\taa15 real (10, 5) storage disk,\n\t\taa16 double (10) references reftable (aaaa),\n\t\taa17 double (10, 5) references reftable (dddd) match full on delete CASCADE on update SET NULL,\n\t\taa18 bit (10) check(aaa()'bbb'(aaa)),\n\t\taa19 datetime (3) check(aaa) not enforced,\n\t\taa20 timestamp (3) generated always as (generation_expr),\n\t\taa21 time (3) as (generation_expr),\n\t\taa22 year (4) virtual,\n\t\taa23 char(10) not null default -1 visible key,\n\t\taa24 varchar(10),\n\t\taa25 binary (100),\n\t\taa26 varbinary (100), --aaaaa\n\t\taa27 blob (10),\n\t\taa28 text (10),\n\t\tupdated_at timestamp with time zone default current_timestamp on update current_timestamp,\n\t\tprimary key using btree (aa25 (10) asc, aa26 (10) desc, aa27 (10), aa28) KEY_BLOCK_SIZE = 'value' COMMENT 'string',\n\t\tunique index index_zzzz using btree (aa25 (10) asc, aa26 (10) desc, aa27 (10), aa28) KEY_BLOCK_SIZE = 'value' COMMENT 'string',\n\t\tforeign key(aaaa, bbbb) references reftable (aaaa (10) asc, bbbb (10) desc, cccc (10), dddd),\n\t\tconstraint constraint_zzzz check(aaa)\n\t)AUTOEXTEND_SIZE 1\n\tAUTO_INCREMENT 1\n\tAVG_ROW_LENGTH 1\n\tDEFAULT CHARACTER SET charset_zzzz\n\tCHARACTER SET charset_zzzz\n\tCHECKSUM 0\n\tCHECKSUM 1\n\tDEFAULT COLLATE collation_zzzz\n\tCOLLATE collation_zzzz\n\tCOMMENT 'string'\n\tCOMPRESSION 'ZLIB'\n\tCOMPRESSION 'LZ4'\n\tCOMPRESSION 'NONE'\n\tCONNECTION 'connect_string'\n\tDATA DIRECTORY 'absolute path to directory'\n\tINDEX DIRECTORY 'absolute path to directory'\n\tDELAY_KEY_WRITE 0\n\tDELAY_KEY_WRITE 1\n\tENCRYPTION 'Y' \n\tENCRYPTION 'N'\n\tENGINE engine_zzzz\n\tENGINE_ATTRIBUTE 'string'\n\tINSERT_METHOD NO\n\tINSERT_METHOD FIRST\n\tINSERT_METHOD LAST\n\tKEY_BLOCK_SIZE 1\n\tMAX_ROWS 1\n\tMIN_ROWS 1\n\tPACK_KEYS 0\n\tPACK_KEYS 1\n\tPACK_KEYS DEFAULT\n\tPASSWORD 'string'\n\tROW_FORMAT DEFAULT \n\tROW_FORMAT DYNAMIC\n\tROW_FORMAT FIXED\n\tROW_FORMAT COMPRESSED\n\tROW_FORMAT REDUNDANT\n\tROW_FORMAT COMPACT\n\tSECONDARY_ENGINE_ATTRIBUTE 'string'\n\tSTATS_AUTO_RECALC DEFAULT \n\tSTATS_AUTO_RECALC 0\n\tSTATS_AUTO_RECALC 1\n\tSTATS_PERSISTENT DEFAULT\n\tSTATS_PERSISTENT 0\n\tSTATS_PERSISTENT 1\n\tSTATS_SAMPLE_PAGES = 1\n\tTABLESPACE tablespace_zzzz\n\tTABLESPACE tablespace_zzzz STORAGE DISK\n\tTABLESPACE tablespace_zzzz STORAGE MEMORY\n\tUNION (tbl_yyyy, tbl_zzzz);\n\tcreate table if not exists scm.`test_table2`(`aaa1`integer);" [
  ⟨(S ""), (S "test_table"), false, [⟨(S "aaa1"), ⟨(S "INTEGER"), 0, 0⟩,
      ⟨(S ""), true, false, false, true, .nil, (S ""), (S ""), ⟨(S ""), none⟩⟩⟩,
      ⟨(S "aaa2"), ⟨(S "INTEGER"), 10, 0⟩,
      ⟨(S ""), true, false, true, false, .nil, (S ""), (S ""), ⟨(S ""), none⟩⟩⟩,
      ⟨(S "aaa3"), ⟨(S "INT"), 10, 0⟩,
      ⟨(S ""), false, false, true, false, (.num (S "-1")), (S ""), (S ""), ⟨(S ""), none⟩⟩⟩,
      ⟨(S "aaa4"), ⟨(S "SMALLINT"), 10, 0⟩,
      ⟨(S ""), false, false, false, false, .nil, (S ""), (S ""), ⟨(S ""), none⟩⟩⟩,
      ⟨(S "aaa5"), ⟨(S "TINYINT"), 10, 0⟩,
      ⟨(S ""), false, false, false, false, (.str (S "a")), (S ""), (S ""), ⟨(S ""), none⟩⟩⟩,
      ⟨(S "aaa6"), ⟨(S "MEDIUMINT"), 10, 0⟩,
      ⟨(S ""), false, false, false, false, (.str (S "a")), (S ""), (S ""), ⟨(S ""), none⟩⟩⟩,
      ⟨(S "aaa7"), ⟨(S "BIGINT"), 10, 0⟩,
      ⟨(S ""), false, false, false, false, (.bool true), (S ""), (S ""), ⟨(S ""), none⟩⟩⟩,
      ⟨(S "aaa8"), ⟨(S "NUMERIC"), 10, 0⟩,
      ⟨(S ""), false, false, false, false, (.str (S "(expr(aaa))")), (S ""), (S ""), ⟨(S ""), none⟩⟩⟩,
      ⟨(S "aaa9"), ⟨(S "NUMERIC"), 10, 5⟩,
      ⟨(S ""), false, true, false, false, .nil, (S ""), (S ""), ⟨(S ""), none⟩⟩⟩,
      ⟨(S "aa10"), ⟨(S "DECIMAL"), 10, 0⟩,
      ⟨(S ""), false, true, false, false, .nil, (S ""), (S "collation_zzzz"), ⟨(S ""), none⟩⟩⟩,
      ⟨(S "aa11"), ⟨(S "DECIMAL"), 10, 5⟩,
      ⟨(S ""), false, false, false, false, .nil, (S ""), (S ""), ⟨(S ""), none⟩⟩⟩,
      ⟨(S "aa12"), ⟨(S "FLOAT"), 10, 0⟩,
      ⟨(S ""), false, false, false, false, .nil, (S ""), (S ""), ⟨(S ""), none⟩⟩⟩,
      ⟨(S "aa13"), ⟨(S "FLOAT"), 10, 5⟩,
      ⟨(S ""), false, false, false, false, .nil, (S ""), (S ""), ⟨(S ""), none⟩⟩⟩,
      ⟨(S "aa14"), ⟨(S "REAL"), 10, 0⟩,
      ⟨(S ""), false, false, false, false, .nil, (S ""), (S ""), ⟨(S ""), none⟩⟩⟩,
      ⟨(S "aa15"), ⟨(S "REAL"), 10, 5⟩,
      ⟨(S ""), false, false, false, false, .nil, (S ""), (S ""), ⟨(S ""), none⟩⟩⟩,
      ⟨(S "aa16"), ⟨(S "DOUBLE"), 10, 0⟩,
      ⟨(S ""), false, false, false, false, .nil, (S ""), (S ""), ⟨(S "reftable"), some [(S "aaaa")]⟩⟩⟩,
      ⟨(S "aa17"), ⟨(S "DOUBLE"), 10, 5⟩,
      ⟨(S ""), false, false, false, false, .nil, (S ""), (S ""), ⟨(S "reftable"), some [(S "dddd")]⟩⟩⟩,
      ⟨(S "aa18"), ⟨(S "BIT"), 10, 0⟩,
      ⟨(S ""), false, false, false, false, .nil, (S "(aaa()'bbb'(aaa))"), (S ""), ⟨(S ""), none⟩⟩⟩,
      ⟨(S "aa19"), ⟨(S "DATETIME"), 3, 0⟩,
      ⟨(S ""), false, false, false, false, .nil, (S "(aaa)"), (S ""), ⟨(S ""), none⟩⟩⟩,
      ⟨(S "aa20"), ⟨(S "TIMESTAMP"), 3, 0⟩,
      ⟨(S ""), false, false, false, false, .nil, (S ""), (S ""), ⟨(S ""), none⟩⟩⟩,
      ⟨(S "aa21"), ⟨(S "TIME"), 3, 0⟩,
      ⟨(S ""), false, false, false, false, .nil, (S ""), (S ""), ⟨(S ""), none⟩⟩⟩,
      ⟨(S "aa22"), ⟨(S "YEAR"), 4, 0⟩,
      ⟨(S ""), false, false, false, false, .nil, (S ""), (S ""), ⟨(S ""), none⟩⟩⟩,
      ⟨(S "aa23"), ⟨(S "CHAR"), 10, 0⟩,
      ⟨(S ""), true, false, true, false, (.num (S "-1")), (S ""), (S ""), ⟨(S ""), none⟩⟩⟩,
      ⟨(S "aa24"), ⟨(S "VARCHAR"), 10, 0⟩,
      ⟨(S ""), false, false, false, false, .nil, (S ""), (S ""), ⟨(S ""), none⟩⟩⟩,
      ⟨(S "aa25"), ⟨(S "BINARY"), 100, 0⟩,
      ⟨(S ""), false, false, false, false, .nil, (S ""), (S ""), ⟨(S ""), none⟩⟩⟩,
      ⟨(S "aa26"), ⟨(S "VARBINARY"), 100, 0⟩,
      ⟨(S ""), false, false, false, false, .nil, (S ""), (S ""), ⟨(S ""), none⟩⟩⟩,
      ⟨(S "aa27"), ⟨(S "BLOB"), 10, 0⟩,
      ⟨(S ""), false, false, false, false, .nil, (S ""), (S ""), ⟨(S ""), none⟩⟩⟩,
      ⟨(S "aa28"), ⟨(S "TEXT"), 10, 0⟩,
      ⟨(S ""), false, false, false, false, .nil, (S ""), (S ""), ⟨(S ""), none⟩⟩⟩,
      ⟨(S "updated_at"), ⟨(S "TIMESTAMP"), 0, 0⟩,
      ⟨(S ""), false, false, false, false, (.str (S "current_timestamp")), (S ""), (S ""), ⟨(S ""), none⟩⟩⟩],
    ⟨[⟨(S ""), [(S "aa25"), (S "aa26"), (S "aa27"), (S "aa28")]⟩], [⟨(S ""), [(S "aa25"), (S "aa26"), (S "aa27"), (S "aa28")]⟩], [⟨(S "constraint_zzzz"), (S "(aaa)")⟩], [⟨(S ""), [(S "aaaa"), (S "bbbb")], ⟨(S "reftable"), some [(S "aaaa"), (S "bbbb"), (S "cccc"), (S "dddd")]⟩⟩]⟩⟩,
  ⟨(S "scm"), (S "test_table2"), true, [⟨(S "aaa1"), ⟨(S "INTEGER"), 0, 0⟩,
      ⟨(S ""), false, false, false, false, .nil, (S ""), (S ""), ⟨(S ""), none⟩⟩⟩],
    ⟨[], [], [], []⟩⟩]
-- ddlparse_test.go:167
#guard conv .sqlite "\n\tCREATE TABLE IF NOT EXISTS users (\n\t\tuser_id INTEGER PRIMARY KEY AUTOINCREMENT,\n\t\tuser_name TEXT NOT NULL UNIQUE,\n\t\tuser_password TEXT NOT NULL,\n\t\tcreated_at TEXT NOT NULL DEFAULT (DATETIME('now', 'localtime')),\n\t\tupdated_at TEXT NOT NULL DEFAULT (DATETIME('now', 'localtime'))\n\t);\n\t\n\tCREATE TRIGGER IF NOT EXISTS trg_users_upd AFTER UPDATE ON users\n\tBEGIN\n\tUPDATE users\n\tSET updated_at = DATETIME('now', 'localtime') \n    WHERE rowid == NEW.rowid;\n\tEND;" [
  ⟨(S ""), (S "users"), true, [⟨(S "user_id"), ⟨(S "INTEGER"), 0, 0⟩,
      ⟨(S ""), true, false, false, true, .nil, (S ""), (S ""), ⟨(S ""), none⟩⟩⟩,
      ⟨(S "user_name"), ⟨(S "TEXT"), 0, 0⟩,
      ⟨(S ""), false, true, true, false, .nil, (S ""), (S ""), ⟨(S ""), none⟩⟩⟩,
      ⟨(S "user_password"), ⟨(S "TEXT"), 0, 0⟩,
      ⟨(S ""), false, false, true, false, .nil, (S ""), (S ""), ⟨(S ""), none⟩⟩⟩,
      ⟨(S "created_at"), ⟨(S "TEXT"), 0, 0⟩,
      ⟨(S ""), false, false, true, false, (.str (S "(DATETIME('now','localtime'))")), (S ""), (S ""), ⟨(S ""), none⟩⟩⟩,
      ⟨(S "updated_at"), ⟨(S "TEXT"), 0, 0⟩,
      ⟨(S ""), false, false, true, false, (.str (S "(DATETIME('now','localtime'))")), (S ""), (S ""), ⟨(S ""), none⟩⟩⟩],
    ⟨[], [], [], []⟩⟩]
-- ddlparse_test.go:170
#guard conv .sqlite "\n\tCREATE TABLE IF NOT EXISTS users (\n\t\tuser_id INTEGER PRIMARY KEY AUTOINCREMENT,\n\t\tuser_name TEXT NOT NULL UNIQUE,\n\t\tuser_password TEXT NOT NULL,\n\t\tcreated_at TEXT NOT NULL DEFAULT (DATETIME('now', 'localtime')),\n\t\tupdated_at TEXT NOT NULL DEFAULT (DATETIME('now', 'localtime'))\n\t);\n\t\n\tCREATE TRIGGER IF NOT EXISTS trg_users_upd AFTER UPDATE ON users\n\tBEGIN\n\tUPDATE users\n\tSET updated_at = DATETIME('now', 'localtime') \n    WHERE rowid == NEW.rowid;\n\tEND;" [
  ⟨(S ""), (S "users"), true, [⟨(S "user_id"), ⟨(S "INTEGER"), 0, 0⟩,
      ⟨(S ""), true, false, false, true, .nil, (S ""), (S ""), ⟨(S ""), none⟩⟩⟩,
      ⟨(S "user_name"), ⟨(S "TEXT"), 0, 0⟩,
      ⟨(S ""), false, true, true, false, .nil, (S ""), (S ""), ⟨(S ""), none⟩⟩⟩,
      ⟨(S "user_password"), ⟨(S "TEXT"), 0, 0⟩,
      ⟨(S ""), false, false, true, false, .nil, (S ""), (S ""), ⟨(S ""), none⟩⟩⟩,
      ⟨(S "created_at"), ⟨(S "TEXT"), 0, 0⟩,
      ⟨(S ""), false, false, true, false, (.str (S "(DATETIME('now','localtime'))")), (S ""), (S ""), ⟨(S ""), none⟩⟩⟩,
      ⟨(S "updated_at"), ⟨(S "TEXT"), 0, 0⟩,
      ⟨(S ""), false, false, true, false, (.str (S "(DATETIME('now','localtime'))")), (S ""), (S ""), ⟨(S ""), none⟩⟩⟩],
    ⟨[], [], [], []⟩⟩]
-- ddlparse_test.go:173
#guard force "\n\tCREATE TABLE IF NOT EXISTS users (\n\t\tuser_id INTEGER PRIMARY KEY AUTOINCREMENT,\n\t\tuser_name TEXT NOT NULL UNIQUE,\n\t\tuser_password TEXT NOT NULL,\n\t\tcreated_at TEXT NOT NULL DEFAULT (DATETIME('now', 'localtime')),\n\t\tupdated_at TEXT NOT NULL DEFAULT (DATETIME('now', 'localtime'))\n\t);\n\t\n\tCREATE TRIGGER IF NOT EXISTS trg_users_upd AFTER UPDATE ON users\n\tBEGIN\n\tUPDATE users\n\tSET updated_at = DATETIME('now', 'localtime') \n    WHERE rowid == NEW.rowid;\n\tEND;" [
  ⟨(S ""), (S "users"), true, [⟨(S "user_id"), ⟨(S "INTEGER"), 0, 0⟩,
      ⟨(S ""), true, false, false, true, .nil, (S ""), (S ""), ⟨(S ""), none⟩⟩⟩,
      ⟨(S "user_name"), ⟨(S "TEXT"), 0, 0⟩,
      ⟨(S ""), false, true, true, false, .nil, (S ""), (S ""), ⟨(S ""), none⟩⟩⟩,
      ⟨(S "user_password"), ⟨(S "TEXT"), 0, 0⟩,
      ⟨(S ""), false, false, true, false, .nil, (S ""), (S ""), ⟨(S ""), none⟩⟩⟩,
      ⟨(S "created_at"), ⟨(S "TEXT"), 0, 0⟩,
      ⟨(S ""), false, false, true, false, (.str (S "(DATETIME('now','localtime'))")), (S ""), (S ""), ⟨(S ""), none⟩⟩⟩,
      ⟨(S "updated_at"), ⟨(S "TEXT"), 0, 0⟩,
      ⟨(S ""), false, false, true, false, (.str (S "(DATETIME('now','localtime'))")), (S ""), (S ""), ⟨(S ""), none⟩⟩⟩],
    ⟨[], [], [], []⟩⟩]
-- ddlparse_test.go:316
#guard conv .postgres "\n\tCREATE TABLE IF NOT EXISTS users (\n\t\tuser_id SERIAL PRIMARY KEY,\n\t\tuser_name TEXT NOT NULL UNIQUE,\n\t\tuser_password TEXT NOT NULL,\n\t\tcreated_at TIMESTAMP NOT NULL DEFAULT CURRENT_TIMESTAMP,\n\t\tupdated_at TIMESTAMP NOT NULL DEFAULT CURRENT_TIMESTAMP\n\t);\n\t\n\tcreate trigger trg_users_upd BEFORE UPDATE ON users FOR EACH ROW\n  \texecute procedure set_update_time();" [
  ⟨(S ""), (S "users"), true, [⟨(S "user_id"), ⟨(S "SERIAL"), 0, 0⟩,
      ⟨(S ""), true, false, false, false, .nil, (S ""), (S ""), ⟨(S ""), none⟩⟩⟩,
      ⟨(S "user_name"), ⟨(S "TEXT"), 0, 0⟩,
      ⟨(S ""), false, true, true, false, .nil, (S ""), (S ""), ⟨(S ""), none⟩⟩⟩,
      ⟨(S "user_password"), ⟨(S "TEXT"), 0, 0⟩,
      ⟨(S ""), false, false, true, false, .nil, (S ""), (S ""), ⟨(S ""), none⟩⟩⟩,
      ⟨(S "created_at"), ⟨(S "TIMESTAMP"), 0, 0⟩,
      ⟨(S ""), false, false, true, false, (.str (S "CURRENT_TIMESTAMP")), (S ""), (S ""), ⟨(S ""), none⟩⟩⟩,
      ⟨(S "updated_at"), ⟨(S "TIMESTAMP"), 0, 0⟩,
      ⟨(S ""), false, false, true, false, (.str (S "CURRENT_TIMESTAMP")), (S ""), (S ""), ⟨(S ""), none⟩⟩⟩],
    ⟨[], [], [], []⟩⟩]
-- ddlparse_test.go:319
#guard conv .postgres "\n\tCREATE TABLE IF NOT EXISTS users (\n\t\tuser_id SERIAL PRIMARY KEY,\n\t\tuser_name TEXT NOT NULL UNIQUE,\n\t\tuser_password TEXT NOT NULL,\n\t\tcreated_at TIMESTAMP NOT NULL DEFAULT CURRENT_TIMESTAMP,\n\t\tupdated_at TIMESTAMP NOT NULL DEFAULT CURRENT_TIMESTAMP\n\t);\n\t\n\tcreate trigger trg_users_upd BEFORE UPDATE ON users FOR EACH ROW\n  \texecute procedure set_update_time();" [
  ⟨(S ""), (S "users"), true, [⟨(S "user_id"), ⟨(S "SERIAL"), 0, 0⟩,
      ⟨(S ""), true, false, false, false, .nil, (S ""), (S ""), ⟨(S ""), none⟩⟩⟩,
      ⟨(S "user_name"), ⟨(S "TEXT"), 0, 0⟩,
      ⟨(S ""), false, true, true, false, .nil, (S ""), (S ""), ⟨(S ""), none⟩⟩⟩,
      ⟨(S "user_password"), ⟨(S "TEXT"), 0, 0⟩,
      ⟨(S ""), false, false, true, false, .nil, (S ""), (S ""), ⟨(S ""), none⟩⟩⟩,
      ⟨(S "created_at"), ⟨(S "TIMESTAMP"), 0, 0⟩,
      ⟨(S ""), false, false, true, false, (.str (S "CURRENT_TIMESTAMP")), (S ""), (S ""), ⟨(S ""), none⟩⟩⟩,
      ⟨(S "updated_at"), ⟨(S "TIMESTAMP"), 0, 0⟩,
      ⟨(S ""), false, false, true, false, (.str (S "CURRENT_TIMESTAMP")), (S ""), (S ""), ⟨(S ""), none⟩⟩⟩],
    ⟨[], [], [], []⟩⟩]
-- ddlparse_test.go:322
#guard force "\n\tCREATE TABLE IF NOT EXISTS users (\n\t\tuser_id SERIAL PRIMARY KEY,\n\t\tuser_name TEXT NOT NULL UNIQUE,\n\t\tuser_password TEXT NOT NULL,\n\t\tcreated_at TIMESTAMP NOT NULL DEFAULT CURRENT_TIMESTAMP,\n\t\tupdated_at TIMESTAMP NOT NULL DEFAULT CURRENT_TIMESTAMP\n\t);\n\t\n\tcreate trigger trg_users_upd BEFORE UPDATE ON users FOR EACH ROW\n  \texecute procedure set_update_time();" [
  ⟨(S ""), (S "users"), true, [⟨(S "user_id"), ⟨(S "SERIAL"), 0, 0⟩,
      ⟨(S ""), true, false, false, false, .nil, (S ""), (S ""), ⟨(S ""), none⟩⟩⟩,
      ⟨(S "user_name"), ⟨(S "TEXT"), 0, 0⟩,
      ⟨(S ""), false, true, true, false, .nil, (S ""), (S ""), ⟨(S ""), none⟩⟩⟩,
      ⟨(S "user_password"), ⟨(S "TEXT"), 0, 0⟩,
      ⟨(S ""), false, false, true, false, .nil, (S ""), (S ""), ⟨(S ""), none⟩⟩⟩,
      ⟨(S "created_at"), ⟨(S "TIMESTAMP"), 0, 0⟩,
      ⟨(S ""), false, false, true, false, (.str (S "CURRENT_TIMESTAMP")), (S ""), (S ""), ⟨(S ""), none⟩⟩⟩,
      ⟨(S "updated_at"), ⟨(S "TIMESTAMP"), 0, 0⟩,
      ⟨(S ""), false, false, true, false, (.str (S "CURRENT_TIMESTAMP")), (S ""), (S ""), ⟨(S ""), none⟩⟩⟩],
    ⟨[], [], [], []⟩⟩]
-- ddlparse_test.go:464
#guard conv .mysql "\n\tCREATE TABLE IF NOT EXISTS users (\n\t\tuser_id INT AUTO_INCREMENT PRIMARY KEY,\n\t\tuser_name VARCHAR(255) NOT NULL UNIQUE,\n\t\tuser_password TEXT NOT NULL,\n\t\tcreated_at TIMESTAMP NOT NULL DEFAULT CURRENT_TIMESTAMP,\n\t\tupdated_at TIMESTAMP NOT NULL DEFAULT CURRENT_TIMESTAMP ON UPDATE CURRENT_TIMESTAMP\n\t);\n\t\n\tCREATE INDEX index_user_name ON users (user_name);" [
  ⟨(S ""), (S "users"), true, [⟨(S "user_id"), ⟨(S "INT"), 0, 0⟩,
      ⟨(S ""), true, false, false, true, .nil, (S ""), (S ""), ⟨(S ""), none⟩⟩⟩,
      ⟨(S "user_name"), ⟨(S "VARCHAR"), 255, 0⟩,
      ⟨(S ""), false, true, true, false, .nil, (S ""), (S ""), ⟨(S ""), none⟩⟩⟩,
      ⟨(S "user_password"), ⟨(S "TEXT"), 0, 0⟩,
      ⟨(S ""), false, false, true, false, .nil, (S ""), (S ""), ⟨(S ""), none⟩⟩⟩,
      ⟨(S "created_at"), ⟨(S "TIMESTAMP"), 0, 0⟩,
      ⟨(S ""), false, false, true, false, (.str (S "CURRENT_TIMESTAMP")), (S ""), (S ""), ⟨(S ""), none⟩⟩⟩,
      ⟨(S "updated_at"), ⟨(S "TIMESTAMP"), 0, 0⟩,
      ⟨(S ""), false, false, true, false, (.str (S "CURRENT_TIMESTAMP")), (S ""), (S ""), ⟨(S ""), none⟩⟩⟩],
    ⟨[], [], [], []⟩⟩]
-- ddlparse_test.go:467
#guard conv .mysql "\n\tCREATE TABLE IF NOT EXISTS users (\n\t\tuser_id INT AUTO_INCREMENT PRIMARY KEY,\n\t\tuser_name VARCHAR(255) NOT NULL UNIQUE,\n\t\tuser_password TEXT NOT NULL,\n\t\tcreated_at TIMESTAMP NOT NULL DEFAULT CURRENT_TIMESTAMP,\n\t\tupdated_at TIMESTAMP NOT NULL DEFAULT CURRENT_TIMESTAMP ON UPDATE CURRENT_TIMESTAMP\n\t);\n\t\n\tCREATE INDEX index_user_name ON users (user_name);" [
  ⟨(S ""), (S "users"), true, [⟨(S "user_id"), ⟨(S "INT"), 0, 0⟩,
      ⟨(S ""), true, false, false, true, .nil, (S ""), (S ""), ⟨(S ""), none⟩⟩⟩,
      ⟨(S "user_name"), ⟨(S "VARCHAR"), 255, 0⟩,
      ⟨(S ""), false, true, true, false, .nil, (S ""), (S ""), ⟨(S ""), none⟩⟩⟩,
      ⟨(S "user_password"), ⟨(S "TEXT"), 0, 0⟩,
      ⟨(S ""), false, false, true, false, .nil, (S ""), (S ""), ⟨(S ""), none⟩⟩⟩,
      ⟨(S "created_at"), ⟨(S "TIMESTAMP"), 0, 0⟩,
      ⟨(S ""), false, false, true, false, (.str (S "CURRENT_TIMESTAMP")), (S ""), (S ""), ⟨(S ""), none⟩⟩⟩,
      ⟨(S "updated_at"), ⟨(S "TIMESTAMP"), 0, 0⟩,
      ⟨(S ""), false, false, true, false, (.str (S "CURRENT_TIMESTAMP")), (S ""), (S ""), ⟨(S ""), none⟩⟩⟩],
    ⟨[], [], [], []⟩⟩]
-- ddlparse_test.go:470
#guard force "\n\tCREATE TABLE IF NOT EXISTS users (\n\t\tuser_id INT AUTO_INCREMENT PRIMARY KEY,\n\t\tuser_name VARCHAR(255) NOT NULL UNIQUE,\n\t\tuser_password TEXT NOT NULL,\n\t\tcreated_at TIMESTAMP NOT NULL DEFAULT CURRENT_TIMESTAMP,\n\t\tupdated_at TIMESTAMP NOT NULL DEFAULT CURRENT_TIMESTAMP ON UPDATE CURRENT_TIMESTAMP\n\t);\n\t\n\tCREATE INDEX index_user_name ON users (user_name);" [
  ⟨(S ""), (S "users"), true, [⟨(S "user_id"), ⟨(S "INT"), 0, 0⟩,
      ⟨(S ""), true, false, false, true, .nil, (S ""), (S ""), ⟨(S ""), none⟩⟩⟩,
      ⟨(S "user_name"), ⟨(S "VARCHAR"), 255, 0⟩,
      ⟨(S ""), false, true, true, false, .nil, (S ""), (S ""), ⟨(S ""), none⟩⟩⟩,
      ⟨(S "user_password"), ⟨(S "TEXT"), 0, 0⟩,
      ⟨(S ""), false, false, true, false, .nil, (S ""), (S ""), ⟨(S ""), none⟩⟩⟩,
      ⟨(S "created_at"), ⟨(S "TIMESTAMP"), 0, 0⟩,
      ⟨(S ""), false, false, true, false, (.str (S "CURRENT_TIMESTAMP")), (S ""), (S ""), ⟨(S ""), none⟩⟩⟩,
      ⟨(S "updated_at"), ⟨(S "TIMESTAMP"), 0, 0⟩,
      ⟨(S ""), false, false, true, false, (.str (S "CURRENT_TIMESTAMP")), (S ""), (S ""), ⟨(S ""), none⟩⟩⟩],
    ⟨[], [], [], []⟩⟩]

end DDL.Tests
