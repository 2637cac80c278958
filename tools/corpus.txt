sqlite	
sqlite	CREATE TABLE tt (cc INTEGER);
sqlite	create table tt (cc integer);
sqlite	Create TABLE tt (cc INTEGER);
sqlite	CREATE TABLE IF NOT EXISTS main.tt (id INTEGER CONSTRAINT pk PRIMARY KEY ASC ON CONFLICT FAIL AUTOINCREMENT, n TEXT NOT NULL ON CONFLICT IGNORE UNIQUE ON CONFLICT ABORT DEFAULT 'x' COLLATE NOCASE CHECK (n > (1)), r REAL REFERENCES uu (aa) ON DELETE SET NULL ON UPDATE CASCADE MATCH FULL NOT DEFERRABLE INITIALLY DEFERRED) WITHOUT ROWID, STRICT;
sqlite	CREATE TEMP TABLE tt (aa NONE DEFAULT NULL, bb NUMERIC DEFAULT -15, cc TEXT DEFAULT TRUE, dd TEXT DEFAULT false, ee TEXT DEFAULT CURRENT_TIMESTAMP, ff TEXT DEFAULT (1 + (2))) STRICT, WITHOUT ROWID;
sqlite	CREATE TABLE tt (aa TEXT GENERATED ALWAYS AS (bb) STORED, bb TEXT AS (cc) VIRTUAL, cc TEXT) STRICT;
sqlite	CREATE TABLE tt (aa TEXT, bb TEXT, CONSTRAINT pp PRIMARY KEY (aa, bb) ON CONFLICT ROLLBACK, UNIQUE (bb) ON CONFLICT REPLACE, CONSTRAINT ck CHECK (aa, bb), FOREIGN KEY (aa, bb) REFERENCES uu (cc, dd) ON DELETE NO ACTION DEFERRABLE, FOREIGN KEY (aa) REFERENCES uu);
sqlite	CREATE TABLE "t t" ("a" TEXT, `b` TEXT, UNIQUE ("a", bb));
sqlite	CREATE TABLE 'tt' (aa TEXT);
sqlite	CREATE TABLE [tt] (aa TEXT);
sqlite	CREATE TABLE tt (aa VARCHAR);
sqlite	CREATE TABLE tt (aa TEXT NOT NULL NOT NULL);
sqlite	CREATE TABLE tt (aa TEXT NOT NULL UNIQUE NOT NULL);
sqlite	CREATE TABLE tt (aa TEXT PRIMARY KEY NOT NULL PRIMARY KEY);
sqlite	CREATE TABLE tt (aa TEXT COLLATE BINARY UNIQUE COLLATE BINARY);
sqlite	CREATE TABLE tt (aa TEXT GENERATED ALWAYS AS (b) AS (c));
sqlite	CREATE TABLE select (aa TEXT);
sqlite	CREATE TABLE Select (aa TEXT);
sqlite	CREATE TABLE tt (select TEXT);
sqlite	CREATE TABLE tt (aa TEXT CONSTRAINT AUTO_INCREMENT);
sqlite	CREATE TABLE tt (aa TEXT CONSTRAINT c1 AS (x));
sqlite	CREATE TABLE tt (aa TEXT)
sqlite	CREATE TABLE tt (aa TEXT,);
sqlite	CREATE TABLE tt ();
sqlite	CREATE TABLE tt (aa TEXT REFERENCES uu NOT NULL);
sqlite	CREATE TABLE tt (aa TEXT REFERENCES ss.uu);
sqlite	CREATE TABLE tt (aa TEXT REFERENCES ss.uu, bb TEXT);
sqlite	CREATE TABLE tt (aa TEXT REFERENCES uu (a1, a2));
sqlite	CREATE TABLE tt (aa TEXT, FOREIGN KEY (aa) REFERENCES ss.uu (bb));
sqlite	CREATE TABLE tt (aa TEXT, FOREIGN KEY (aa) REFERENCES uu (bb) ON DELETE);
sqlite	CREATE TABLE tt (aa TEXT CHECK (x);
sqlite	CREATE TABLE tt (aa TEXT CHECK (x
sqlite	CREATE TABLE tt (aa TEXT CHECK x);
sqlite	CREATE TABLE tt (aa TEXT DEFAULT 0x10);
sqlite	CREATE TABLE tt (aa TEXT DEFAULT +5 CHECK ((a) , , (b)));
sqlite	CREATE TABLE tt (aa TEXT DEFAULT "q");
sqlite	CREATE TABLE tt (aa TEXT DEFAULT `q`);
sqlite	CREATE TABLE tt (aa TEXT DEFAULT '');
sqlite	CREATE TABLE tt (aa TEXT) WITHOUT ROWID;
sqlite	CREATE TABLE tt (aa TEXT) WITHOUT ROWID STRICT;
sqlite	CREATE TABLE tt (aa TEXT) WITHOUT STRICT;
sqlite	CREATE TABLE tt (aa TEXT); CREATE TABLE uu (bb REAL);
sqlite	CREATE TABLE tt (aa TEXT) CREATE TABLE uu (bb REAL);
sqlite	CREATE VIEW vv AS SELECT 1; CREATE TABLE uu (bb REAL);
sqlite	CREATE TRIGGER gg BEGIN SELECT 1; SELECT 2; END; CREATE TABLE uu (bb REAL);
sqlite	CREATE TRIGGER gg begin SELECT 1; begin ; end; END; CREATE TABLE uu (bb REAL);
sqlite	CREATE TRIGGER gg BEGIN SELECT 1; END
sqlite	CREATE UNIQUE INDEX ii ON tt (aa); CREATE VIRTUAL TABLE xx;
sqlite	CREATE INDEX ii
sqlite	CREATE SEQUENCE ii;
sqlite	CREATE DATABASE ii;
sqlite	CREATE MATERIALIZED VIEW ii;
sqlite	DROP TABLE tt;
sqlite	\n\nCREATE\n\nTABLE tt\n (aa\n BADTYPE);
sqlite	\nCREATE TABLE tt\n (aa TEXT,\n\n bb TEXT TEXT);
sqlite	CREATE TABLE tt -- comment\n (aa TEXT, /* more\n lines */ bb\n REAL ERR);
sqlite	CREATE TABLE tt/* x **/ (aa TEXT);
sqlite	CREATE TABLE tt/* x */ (aa TEXT);
sqlite	CREATE TABLE tt/* x *\n*/ (aa TEXT\n BAD);
sqlite	CREATE TABLE tt (aa TEXT); -- c1\n-- c2\nCREATE TABLE uu (bb TEXT);
sqlite	CREATE TABLE tt (aa TEXT); -- end
sqlite	CREATE TABLE tt (aa TEXT); /* open
sqlite	CREATE TABLE tt (aa TEXT); /* open *
sqlite	CREATE TABLE tt (aa TEXT); */
sqlite	CREATE TABLE tt (aa TEXT DEFAULT 'open
sqlite	CREATE TABLE tt (aa TEXT DEFAULT 'a\nb' BAD);
sqlite	CREATE TABLE tt (aa TEXT DEFAULT 'it''s');
sqlite	CREATE TABLE tt (aa TEXT DEFAULT 'a"b"c');
sqlite	CREATE TABLE tt (aa TEXT CHECK (a-b > 1 / 2 * 3 = 4));
sqlite	CREATE TABLE tt # c\n (aa TEXT);
sqlite	CREATE\tTABLE\ttt\t(aa TEXT);
sqlite	CREATE TABLE　tt (aa TEXT);
sqlite	CREATE TABLE tt (aa TEXT CHECK (a　b));
sqlite	CREATE TABLE tt (a=b TEXT);
sqlite	CREATE TABLE tt (aa TEXT;bb TEXT);
sqlite	CREATE TABLE tt (aa.bb TEXT);
sqlite	CREATE TABLE a1._b2 (aa TEXT);
sqlite	CREATE TABLE 1a (aa TEXT);
sqlite	CREATE TABLE "" (aa TEXT);
sqlite	-
sqlite	/
sqlite	'
sqlite	"
sqlite	*/
sqlite	;
sqlite	CREATE TABLE if (aa TEXT);
other	CREATE TABLE "tt" (`aa` TEXT DEFAULT 'x');
other	CREATE TABLE tt (aa TEXT COLLATE "BINARY");
postgres	CREATE TABLE tt (c1 BIT VARYING (3), c2 CHARACTER VARYING(4), c3 VARCHAR(5), c4 NUMERIC(3,2), c5 DOUBLE PRECISION, c6 TIMESTAMP (3) WITH TIME ZONE, c7 UUID, c8 TIME WITHOUT TIME ZONE, c9 DECIMAL(7), d1 BIT(1), d2 CHARACTER, d3 INT);
postgres	CREATE TABLE IF NOT EXISTS ss.tt (id SERIAL CONSTRAINT pk PRIMARY KEY INCLUDE (x1, x2) WITH (f=1) USING INDEX TABLESPACE ts NOT NULL UNIQUE DEFAULT 5 CHECK (id>0) NO INHERIT REFERENCES uu (aa) MATCH SIMPLE ON DELETE CASCADE, ff TEXT NULL GENERATED ALWAYS AS IDENTITY (START 1), hh TEXT GENERATED BY DEFAULT AS IDENTITY, ii TEXT GENERATED ALWAYS AS (x) STORED, jj TEXT GENERATED AS IDENTITY) WITH (a=b), WITHOUT OIDS TABLESPACE ts INHERITS (pp) PARTITION BY RANGE (aa) USING hh;
postgres	CREATE TABLE tt (aa TEXT, CONSTRAINT pp PRIMARY KEY (aa, bb) INCLUDE (cc), UNIQUE (bb), CONSTRAINT ck CHECK (x) NO INHERIT, FOREIGN KEY (aa, bb) REFERENCES uu (cc, dd) ON UPDATE RESTRICT, CONSTRAINT ex EXCLUDE USING gist (aa WITH) INCLUDE (ff) WHERE (x), bb TEXT);
postgres	CREATE TABLE tt (EXCLUDE (x), aa TEXT, bb TEXT);
postgres	CREATE TABLE tt (EXCLUDE (x));
postgres	CREATE TABLE tt (aa TEXT, EXCLUDE (x), bb TEXT);
postgres	CREATE TABLE tt (aa TEXT NULL NOT NULL);
postgres	CREATE TABLE tt (aa TEXT NOT NULL NULL);
postgres	CREATE TABLE tt (aa TEXT AS (x));
postgres	CREATE TABLE tt (aa DOUBLE);
postgres	CREATE TABLE tt (aa VARCHAR(0));
postgres	CREATE TABLE tt (aa VARCHAR(-1));
postgres	CREATE TABLE tt (aa VARCHAR(99999999999999999999));
postgres	CREATE TABLE tt (aa NUMERIC(3,2,1));
postgres	CREATE TABLE tt (aa NUMERIC(0,1));
postgres	CREATE TABLE tt (aa TIMESTAMP WITH TIME);
postgres	CREATE TABLE tt (aa varchar(+5), bb bit varying, cc Integer);
postgres	CREATE TABLE `tt` (aa TEXT);
postgres	CREATE TABLE "tt" (aa TEXT DEFAULT 'x', bb TEXT DEFAULT "y");
postgres	CREATE TABLE "tt" ("a a" TEXT DEFAULT 'x y');
postgres	CREATE TABLE user (aa TEXT);
postgres	CREATE TABLE tt (aa TEXT REFERENCES ss.uu(bb));
postgres	CREATE TABLE tt (aa TEXT) FOO;
postgres	CREATE TABLE tt (aa TEXT), WITH (x);
postgres	CREATE TABLE tt (aa TEXT) INHERITS;
postgres	CREATE TEMP TABLE tt (aa TEXT);
postgres	CREATE FUNCTION f1 BEGIN a; b; END; CREATE TYPE ty; CREATE MATERIALIZED VIEW vv; CREATE OPERATOR oo; CREATE TABLE tt (aa TEXT);
postgres	CREATE UNIQUE INDEX ii;
postgres	CREATE TABLE tt (aa TEXT COLLATE xx);
postgres	CREATE TABLE tt (aa TEXT CONSTRAINT AUTOINCREMENT);
postgres	CREATE TABLE tt (aa TEXT PRIMARY KEY NOT NULL REFERENCES uu NOT NULL);
postgres	CREATE TABLE tt (aa TEXT REFERENCES uu NOT NULL);
mysql	CREATE TABLE tt (id INT(11) AUTO_INCREMENT PRIMARY KEY, aa VARCHAR(5) NOT NULL COLLATE utf8 COMMENT 'x' COLUMN_FORMAT FIXED ENGINE_ATTRIBUTE = 'y' STORAGE DISK VISIBLE, bb DECIMAL(5, 2) NULL UNIQUE KEY DEFAULT 15 ON UPDATE CURRENT_TIMESTAMP, cc DATETIME(3) WITH TIME ZONE DEFAULT (now()), dd JSON GENERATED ALWAYS AS (x) STORED, ee DOUBLE KEY, ff INTEGER REFERENCES uu (aa) ON DELETE SET DEFAULT MATCH PARTIAL) ENGINE = InnoDB, AUTO_INCREMENT = 5 COMMENT 'c' DEFAULT CHARACTER SET = utf8 COLLATE xx CHECKSUM 1 PACK_KEYS DEFAULT DATA DIRECTORY 'd' TABLESPACE ts STORAGE MEMORY UNION (a1, b1.c1) INSERT_METHOD NO ROW_FORMAT COMPACT;
mysql	CREATE TABLE tt (aa INT, CONSTRAINT PRIMARY KEY USING BTREE (aa (3) DESC, (x + 1) ASC) KEY_BLOCK_SIZE = 5 COMMENT 'x', CONSTRAINT uq UNIQUE INDEX ui USING HASH (aa) VISIBLE WITH PARSER pp, FOREIGN KEY fk (aa, bb) REFERENCES uu (cc, dd) ON DELETE CASCADE, CONSTRAINT ck CHECK (x) NOT ENFORCED);
mysql	CREATE TABLE tt (aa INT CHECK (x) NOT NULL);
mysql	CREATE TABLE tt (aa INT CHECK (x) NOT ENFORCED NOT NULL);
mysql	CREATE TABLE tt (aa INT, INDEX (aa));
mysql	CREATE TABLE tt (aa INT, INDEX ii (aa), bb INT);
mysql	CREATE TABLE tt (aa INT, KEY ii USING BTREE (aa), KEY jj (aa), KEY kk (aa));
mysql	CREATE TABLE tt (aa INT, FULLTEXT INDEX ii (aa));
mysql	CREATE TABLE tt (aa INT, FULLTEXT ii (aa), bb INT);
mysql	CREATE TABLE tt (aa INT, SPATIAL (aa));
mysql	CREATE TABLE tt (aa INT, CONSTRAINT cn FULLTEXT ii (aa));
mysql	CREATE TABLE tt (aa INT PRIMARY KEY KEY);
mysql	CREATE TABLE tt (aa INT UNIQUE KEY KEY);
mysql	CREATE TABLE tt (aa INT NULL NOT NULL);
mysql	CREATE TABLE tt (aa INT GENERATED ALWAYS AS (x) AS (y));
mysql	CREATE TABLE tt (aa INT COMMENT 'x' COMMENT 'y');
mysql	CREATE TABLE tt (aa INT VISIBLE INVISIBLE);
mysql	CREATE TABLE tt (aa INT CONSTRAINT CHECK (x));
mysql	CREATE TABLE tt (aa INT CONSTRAINT NOT NULL);
mysql	CREATE TABLE tt (aa INT REFERENCES ss.uu);
mysql	CREATE TABLE tt (aa INT, FOREIGN KEY (aa) REFERENCES uu);
mysql	CREATE TABLE tt (aa INT, FOREIGN KEY (aa) REFERENCES uu ((x)));
mysql	CREATE TABLE tt (aa INT DEFAULT "x", bb INT DEFAULT 'y', cc INT DEFAULT 5 ON UPDATE CURRENT_TIME);
mysql	CREATE TABLE `tt` (`aa` INT);
mysql	CREATE TABLE "tt" (aa INT);
mysql	CREATE TABLE tt # comment\n (aa INT);
mysql	CREATE TABLE tt (aa INT) CHECKSUM 2;
mysql	CREATE TABLE tt (aa INT) PACK_KEYS = 0, STATS_PERSISTENT DEFAULT;
mysql	CREATE TABLE tt (aa INT) CHARACTER utf8;
mysql	CREATE TABLE tt (aa INT) DEFAULT ENGINE x;
mysql	CREATE TABLE tt (aa INT) ROW_FORMAT = FOO;
mysql	CREATE TABLE tt (aa INT) UNION = ();
mysql	CREATE TABLE tt (aa REAL(3, 1), bb YEAR(4), cc BLOB(5), dd TEXT(6), ee BIT(1), ff BOOLEAN, gg FLOAT, hh TIME WITHOUT TIME ZONE);
mysql	CREATE TABLE tt (aa REAL);
mysql	CREATE TABLE int (aa INT);
mysql	CREATE TABLE INFILE (aa INT);
mysql	CREATE TABLE infilex (aa INT);
mysql	CREATE EVENT ee BEGIN a; END; CREATE TABLE tt (aa INT);
mysql	CREATE MATERIALIZED VIEW vv;
mysql	CREATE TABLE tt (CONSTRAINT x1);
mysql	CREATE TABLE tt (aa INT COMMENT x);
mysql	CREATE TABLE tt (aa INT SECONDARY_ENGINE_ATTRIBUTE 'x' ENGINE_ATTRIBUTE 'y');
mysql	CREATE TABLE tt (aa INT, bb INT REFERENCES uu (aa) ON UPDATE NO ACTION NOT NULL);
sqlite	CREATE TABLE tt (bb NUMERIC DEFAULT 1.5);
sqlite	CREATE TABLE tt (bb NUMERIC);\r
mysql	CREATE TABLE tt (aa DOUBLE KEY);
mysql	CREATE TABLE tt (aa JSON STORED, bb INT);
sqlite	\n\n\n'
sqlite	a--c\nb
sqlite	CREATE TABLE tt (cc INTEGER, CHECK (cc > 0));
postgres	CREATE TABLE tt (cc INTEGER, CHECK (cc > 0));
mysql	CREATE TABLE tt (cc INTEGER, CHECK (cc > 0));
