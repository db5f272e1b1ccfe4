import Verif.Replay.Env
import Verif.Replay.Same
/-
parser/sql/query_test.go, parser/sql/datadef_test.go, types/name_test.go and
types/column_test.go on the model (written by tools/replay/printing.py).
-/
namespace Maho.Replay

/-- parser/sql/query_test.go:34 -/
example : ((.insert ⟨0, 0, (I "t")⟩ [(I "c1"), (I "c2"), (I "c3"), (I "c4")] [[(some (.lit none)),
  (some (.lit none)), (some (.lit none)), (some (.lit none))]]) : Stmt).print env = .ok (ascii
  "INSERT INTO t (c1, c2, c3, c4) VALUES (NULL, NULL, NULL, NULL)") := by decide +kernel

/-- parser/sql/query_test.go:43 -/
example : ((.insert ⟨0, 0, (I "t")⟩ [] [[(some (.lit none)), (some (.lit none)), (some (.lit
  none)), (some (.lit none))]]) : Stmt).print env = .ok (ascii
  "INSERT INTO t VALUES (NULL, NULL, NULL, NULL)") := by decide +kernel

/-- parser/sql/query_test.go:51 -/
example : ((.insert ⟨0, 0, (I "t")⟩ [] [[(some (.lit (some (.bool true)))), (some (.lit (some
  (.str (ascii "abcd"))))), (some (.lit (some (.float 0x405edd2f1a9fbe77#64)))), (some (.lit (some
  (.int 789))))]]) : Stmt).print env = .ok (ascii
  "INSERT INTO t VALUES (true, 'abcd', 123.456, 789)") := by decide +kernel

/-- parser/sql/query_test.go:66 -/
example : ((.insert ⟨0, 0, (I "t")⟩ [(I "c1"), (I "c2")] [[(some (.lit (some (.bool false)))),
  (some (.lit (some (.int 123))))], [(some (.lit none)), (some (.lit (some (.int 456))))]]) :
  Stmt).print env = .ok (ascii "INSERT INTO t (c1, c2) VALUES (false, 123), (NULL, 456)") :=
  by decide +kernel

/-- parser/sql/query_test.go:77 -/
example : ((.insert ⟨0, 0, (I "t")⟩ [(I "c1"), (I "c2"), (I "c3"), (I "c4")] [[(some (.lit (some
  (.bool false)))), (some (.lit (some (.str (ascii "efghi"))))), (some (.lit (some (.float
  0x408edd3b645a1cac#64)))), (some (.lit (some (.int 321))))]]) : Stmt).print env = .ok (ascii
  "INSERT INTO t (c1, c2, c3, c4) VALUES (false, 'efghi', 987.654, 321)") := by decide +kernel

/-- parser/sql/query_test.go:92 -/
example : ((.insert ⟨0, 0, (I "t")⟩ [(I "c1")] [[(some (.lit (some (.str (ascii "123")))))]]) :
  Stmt).print env = .ok (ascii "INSERT INTO t (c1) VALUES ('123')") := by decide +kernel

/-- parser/sql/query_test.go:100 -/
example : ((.insert ⟨0, 0, (I "t")⟩ [(I "c1")] [[(some (.lit (some (.str (ascii "123.456")))))]])
  : Stmt).print env = .ok (ascii "INSERT INTO t (c1) VALUES ('123.456')") := by decide +kernel

/-- parser/sql/query_test.go:108 -/
example : ((.insert ⟨0, 0, (I "t")⟩ [(I "c1"), (I "c2")] [[(some (.lit none)), (some (.lit (some
  (.float 0x405edd2f1a9fbe77#64))))]]) : Stmt).print env = .ok (ascii
  "INSERT INTO t (c1, c2) VALUES (NULL, 123.456)") := by decide +kernel

/-- parser/sql/query_test.go:118 -/
example : ((.insert ⟨0, 0, (I "t")⟩ [] [[(some (.lit (some (.bool true)))), (some (.lit (some
  (.bool false))))]]) : Stmt).print env = .ok (ascii "INSERT INTO t VALUES (true, false)") :=
  by decide +kernel

/-- parser/sql/query_test.go:143 -/
example : ((.query (.values [[(.lit (some (.int 1))), (.lit (some (.str (ascii "abc")))), (.lit
  (some (.bool true))), (.lit none)]])) : Stmt).print env = .ok (ascii
  "VALUES (1, 'abc', true, NULL)") := by decide +kernel

/-- parser/sql/query_test.go:156 -/
example : ((.query (.values [[(.lit (some (.int 1))), (.lit (some (.str (ascii "abc")))), (.lit
  (some (.bool true)))], [(.lit (some (.int 2))), (.lit (some (.str (ascii "def")))), (.lit (some
  (.bool false)))], [(.lit (some (.int 3))), (.lit (some (.str (ascii "ghi")))), (.lit (some
  (.bool true)))], [(.lit (some (.int 4))), (.lit (some (.str (ascii "jkl")))), (.lit (some (.bool
  false)))]])) : Stmt).print env = .ok (ascii
  "VALUES (1, 'abc', true), (2, 'def', false), (3, 'ghi', true), (4, 'jkl', false)") :=
  by decide +kernel

/-- parser/sql/query_test.go:198 -/
example : ((.query (.select [] (some (.table ⟨(I "db"), (I "sc"), (I "tbl")⟩ (I "alias"))) none []
  none [])) : Stmt).print env = .ok (ascii "SELECT * FROM db.sc.tbl AS alias") :=
  by decide +kernel

/-- parser/sql/query_test.go:211 -/
example : ((.query (.select [] (some (.stmt (.values [[(.lit (some (.int 1))), (.lit (some (.str
  (ascii "abc")))), (.lit (some (.bool true))), (.lit none)]]) (I "vals") [(I "c1"), (I "c2"), (I
  "c3"), (I "c4")])) none [] none [])) : Stmt).print env = .ok (ascii
  "SELECT * FROM (VALUES (1, 'abc', true, NULL)) AS vals (c1, c2, c3, c4)") := by decide +kernel

/-- parser/sql/query_test.go:235 -/
example : ((.query (.select [] (some (.stmt (.values [[(.lit (some (.int 1))), (.lit (some (.str
  (ascii "abc")))), (.lit (some (.bool true)))], [(.lit (some (.int 2))), (.lit (some (.str (ascii
  "def")))), (.lit (some (.bool false)))], [(.lit (some (.int 3))), (.lit (some (.str (ascii
  "ghi")))), (.lit (some (.bool true)))], [(.lit (some (.int 4))), (.lit (some (.str (ascii
  "jkl")))), (.lit (some (.bool false)))]]) (I "vals") [(I "idx"), (I "name"), (I "flag")])) none
  [] none [])) : Stmt).print env = .ok (ascii
  "SELECT * FROM (VALUES (1, 'abc', true), (2, 'def', false), (3, 'ghi', true), (4, 'jkl', false)) AS vals (idx, name, flag)")
  := by decide +kernel

/-- parser/sql/query_test.go:269 -/
example : ((.query (.select [] (some (.stmt (.values [[(.lit none), (.lit none), (.lit none)]]) (I
  "vals") [(I "c1"), (I "c2"), (I "c3")])) (some (.lit (some (.bool false)))) [] none [])) :
  Stmt).print env = .ok (ascii
  "SELECT * FROM (VALUES (NULL, NULL, NULL)) AS vals (c1, c2, c3) WHERE false") :=
  by decide +kernel

/-- parser/sql/query_test.go:288 -/
example : ((.query (.select [] (some (.index ⟨0, 0, (I "t")⟩ (I "i") 0)) none [] none [])) :
  Stmt).print env = .ok (ascii "SELECT * FROM t@i") := by decide +kernel

/-- parser/sql/query_test.go:297 -/
example : ((.query (.select [(.table (I "t")), (.expr (.ref (I "c1") []) 0), (.expr (.ref (I "c2")
  []) (I "a2"))] (some (.table ⟨0, 0, (I "t")⟩ 0)) none [] none [])) : Stmt).print env = .ok
  (ascii "SELECT t.*, c1, c2 AS a2 FROM t") := by decide +kernel

/-- parser/sql/query_test.go:311 -/
example : ((.query (.select [(.expr (.ref (I "c") []) 0)] (some (.table ⟨0, 0, (I "t")⟩ 0)) none
  [(.ref (I "c") [])] none [])) : Stmt).print env = .ok (ascii "SELECT c FROM t GROUP BY c") :=
  by decide +kernel

/-- parser/sql/query_test.go:321 -/
example : ((.query (.select [(.expr (.ref (I "c") []) 0)] (some (.table ⟨0, 0, (I "t")⟩ 0)) none
  [(.ref (I "c") []), (.ref (I "d") []), (.binary .add (.ref (I "e") []) (.ref (I "f") []))] none
  [])) : Stmt).print env = .ok (ascii "SELECT c FROM t GROUP BY c, d, (e + f)") :=
  by decide +kernel

/-- parser/sql/query_test.go:334 -/
example : ((.query (.select [(.expr (.ref (I "c") []) 0)] (some (.table ⟨0, 0, (I "t")⟩ 0)) none
  [(.ref (I "c") [])] (some (.binary .greaterThan (.ref (I "c") []) (.lit (some (.int 1))))) []))
  : Stmt).print env = .ok (ascii "SELECT c FROM t GROUP BY c HAVING (c > 1)") := by decide +kernel

/-- parser/sql/query_test.go:346 -/
example : ((.query (.select [] (some (.table ⟨0, 0, (I "t")⟩ 0)) none [] none [((I "c1"), false),
  ((I "c2"), true)])) : Stmt).print env = .ok (ascii "SELECT * FROM t ORDER BY c1 ASC, c2 DESC")
  := by decide +kernel

/-- parser/sql/query_test.go:356 -/
example : ((.query (.select [(.expr (.ref (I "t1") [(I "c1")]) 0), (.expr (.ref (I "t2") [(I
  "c2")]) 0)] (some (.join (.table ⟨0, 0, (I "t1")⟩ 0) (.table ⟨0, 0, (I "t2")⟩ 0) .crossJoin none
  [])) none [] none [])) : Stmt).print env = .ok (ascii
  "SELECT t1.c1, t2.c2 FROM (t1 CROSS JOIN t2)") := by decide +kernel

/-- parser/sql/query_test.go:374 -/
example : ((.query (.select [] (some (.join (.join (.table ⟨0, 0, (I "t1")⟩ 0) (.table ⟨0, 0, (I
  "t2")⟩ 0) .crossJoin none []) (.table ⟨0, 0, (I "t3")⟩ 0) .crossJoin none [])) none [] none []))
  : Stmt).print env = .ok (ascii "SELECT * FROM ((t1 CROSS JOIN t2) CROSS JOIN t3)") :=
  by decide +kernel

/-- parser/sql/query_test.go:394 -/
example : ((.query (.select [] (some (.join (.join (.table ⟨0, 0, (I "t1")⟩ 0) (.table ⟨0, 0, (I
  "t2")⟩ 0) .join none [(I "c1")]) (.table ⟨0, 0, (I "t3")⟩ 0) .crossJoin none [])) none [] none
  [])) : Stmt).print env = .ok (ascii "SELECT * FROM ((t1 JOIN t2 USING (c1)) CROSS JOIN t3)") :=
  by decide +kernel

/-- parser/sql/query_test.go:415 -/
example : ((.query (.select [] (some (.join (.join (.table ⟨0, 0, (I "t1")⟩ 0) (.table ⟨0, 0, (I
  "t2")⟩ 0) .crossJoin none []) (.table ⟨0, 0, (I "t3")⟩ 0) .rightJoin none [(I "c1")])) none []
  none [])) : Stmt).print env = .ok (ascii
  "SELECT * FROM ((t1 CROSS JOIN t2) RIGHT JOIN t3 USING (c1))") := by decide +kernel

/-- parser/sql/query_test.go:436 -/
example : ((.query (.select [] (some (.join (.table ⟨0, 0, (I "t1")⟩ 0) (.table ⟨0, 0, (I "t2")⟩
  0) .join (some (.binary .greaterThan (.ref (I "c1") []) (.lit (some (.int 5))))) [])) none []
  none [])) : Stmt).print env = .ok (ascii "SELECT * FROM (t1 JOIN t2 ON (c1 > 5))") :=
  by decide +kernel

/-- parser/sql/query_test.go:452 -/
example : ((.query (.select [] (some (.join (.table ⟨0, 0, (I "t1")⟩ 0) (.table ⟨0, 0, (I "t2")⟩
  0) .join none [(I "c1"), (I "c2"), (I "c3")])) none [] none [])) : Stmt).print env = .ok (ascii
  "SELECT * FROM (t1 JOIN t2 USING (c1, c2, c3))") := by decide +kernel

/-- parser/sql/query_test.go:486 -/
example : ((.delete ⟨0, 0, (I "t")⟩ none) : Stmt).print env = .ok (ascii "DELETE FROM t") :=
  by decide +kernel

/-- parser/sql/query_test.go:492 -/
example : ((.delete ⟨0, 0, (I "t")⟩ (some (.lit (some (.bool true))))) : Stmt).print env = .ok
  (ascii "DELETE FROM t WHERE true") := by decide +kernel

/-- parser/sql/query_test.go:514 -/
example : ((.update ⟨0, 0, (I "t")⟩ [((I "c1"), (some (.lit (some (.int 1))))), ((I "c2"), (some
  (.lit (some (.int 2))))), ((I "c3"), (some (.lit (some (.int 3)))))] none) : Stmt).print env =
  .ok (ascii "UPDATE t SET c1 = 1, c2 = 2, c3 = 3") := by decide +kernel

/-- parser/sql/query_test.go:525 -/
example : ((.update ⟨0, 0, (I "t")⟩ [((I "c1"), (some (.lit (some (.int 1)))))] (some (.lit (some
  (.bool true))))) : Stmt).print env = .ok (ascii "UPDATE t SET c1 = 1 WHERE true") :=
  by decide +kernel

/-- parser/sql/datadef_test.go:15 -/
example : ((.createTable ⟨⟨(I "xyz"), (I "mno"), (I "abc")⟩, [], [], [], false, [], []⟩) :
  Stmt).print env = .ok (ascii "CREATE TABLE xyz.mno.abc ()") := by decide +kernel

/-- parser/sql/datadef_test.go:25 -/
example : ((.createTable ⟨⟨0, 0, (I "t")⟩, [(I "c1"), (I "c2"), (I "c3"), (I "c4")], [⟨.int64, 4,
  false, false⟩, ⟨.int64, 4, false, false⟩, ⟨.int64, 4, false, false⟩, ⟨.int64, 4, false, true⟩],
  [none, none, none, none], false, [⟨.notNull, (I "foreign_1"), 3, .zero, none⟩], [⟨(I
  "foreign_2"), [(I "c1"), (I "c2")], ⟨0, 0, (I "t2")⟩, [], .noAction, .noAction⟩, ⟨(I "fkey"),
  [(I "c3"), (I "c4"), (I "c2")], ⟨0, 0, (I "t3")⟩, [(I "p1"), (I "p2"), (I "p3")], .noAction,
  .noAction⟩]⟩) : Stmt).print env = .ok (ascii
  "CREATE TABLE t (c1 INT, c2 INT, c3 INT, c4 INT NOT NULL, CONSTRAINT foreign_2 FOREIGN KEY (c1, c2) REFERENCES t2, CONSTRAINT fkey FOREIGN KEY (c3, c4, c2) REFERENCES t3 (p1, p2, p3))")
  := by decide +kernel

/-- parser/sql/datadef_test.go:87 -/
example : ((.dropTable false false [⟨(I "abc"), (I "def"), (I "ghijk")⟩]) : Stmt).print env = .ok
  (ascii "DROP TABLE abc.def.ghijk") := by decide +kernel

/-- parser/sql/datadef_test.go:100 -/
example : ((.dropTable true false [⟨(I "abc"), (I "def"), (I "ghijk")⟩, ⟨0, 0, (I "jkl")⟩]) :
  Stmt).print env = .ok (ascii "DROP TABLE IF EXISTS abc.def.ghijk, jkl") := by decide +kernel

/-- parser/sql/datadef_test.go:282 -/
example : ((.createIndex (I "idx") ⟨0, (I "s"), (I "t")⟩ ⟨false, [(I "c1"), (I "c2")], [false,
  true]⟩ false) : Stmt).print env = .ok (ascii "CREATE INDEX idx ON s.t (c1 ASC, c2 DESC)") :=
  by decide +kernel

/-- parser/sql/datadef_test.go:296 -/
example : ((.createIndex (I "idx") ⟨0, (I "s"), (I "t")⟩ ⟨true, [(I "c1")], [false]⟩ true) :
  Stmt).print env = .ok (ascii "CREATE UNIQUE INDEX IF NOT EXISTS idx ON s.t (c1 ASC)") :=
  by decide +kernel

/-- parser/sql/datadef_test.go:327 -/
example : ((.createDatabase (I "db") [((I "option"), (ascii "value"))]) : Stmt).print env = .ok
  (ascii "CREATE DATABASE db WITH option = value") := by decide +kernel

/-- parser/sql/datadef_test.go:351 -/
example : ((.createSchema ⟨(I "db"), (I "scm")⟩) : Stmt).print env = .ok (ascii
  "CREATE SCHEMA db.scm") := by decide +kernel

/-- parser/sql/datadef_test.go:375 -/
example : ((.alterTable ⟨0, 0, (I "tbl")⟩ [(.addForeignKey ⟨0, [(I "c1"), (I "c2")], ⟨0, 0, (I
  "rtbl")⟩, [], .noAction, .noAction⟩)]) : Stmt).print env = .ok (ascii
  "ALTER TABLE tbl ADD CONSTRAINT FOREIGN KEY (c1, c2) REFERENCES rtbl") := by decide +kernel

/-- parser/sql/datadef_test.go:392 -/
example : ((.alterTable ⟨0, 0, (I "tbl")⟩ [(.addForeignKey ⟨(I "con"), [(I "c1")], ⟨0, 0, (I
  "rtbl")⟩, [], .noAction, .noAction⟩)]) : Stmt).print env = .ok (ascii
  "ALTER TABLE tbl ADD CONSTRAINT con FOREIGN KEY (c1) REFERENCES rtbl") := by decide +kernel

/-- parser/sql/datadef_test.go:407 -/
example : ((.alterTable ⟨0, 0, (I "tbl")⟩ [(.addForeignKey ⟨(I "con1"), [(I "c1")], ⟨0, 0, (I
  "rtbl")⟩, [], .noAction, .noAction⟩), (.addForeignKey ⟨(I "con2"), [(I "c2")], ⟨0, 0, (I
  "tbl2")⟩, [], .noAction, .noAction⟩)]) : Stmt).print env = .ok (ascii
  "ALTER TABLE tbl ADD CONSTRAINT con1 FOREIGN KEY (c1) REFERENCES rtbl, ADD CONSTRAINT con2 FOREIGN KEY (c2) REFERENCES tbl2")
  := by decide +kernel

/-- parser/sql/datadef_test.go:429 -/
example : ((.alterTable ⟨0, 0, (I "tbl")⟩ [(.dropConstraint (I "con") true 0 .none)]) :
  Stmt).print env = .ok (ascii "ALTER TABLE tbl DROP CONSTRAINT IF EXISTS con") :=
  by decide +kernel

/-- parser/sql/datadef_test.go:441 -/
example : ((.alterTable ⟨0, 0, (I "tbl")⟩ [(.addForeignKey ⟨(I "con"), [(I "c1")], ⟨0, 0, (I
  "rtbl")⟩, [], .noAction, .noAction⟩), (.dropConstraint 0 false (I "c1") .default),
  (.dropConstraint 0 false (I "c2") .notNull), (.dropConstraint (I "con") false 0 .none)]) :
  Stmt).print env = .ok (ascii
  "ALTER TABLE tbl ADD CONSTRAINT con FOREIGN KEY (c1) REFERENCES rtbl, ALTER COLUMN c1 DROP DEFAULT, ALTER COLUMN c2 DROP NOT NULL, DROP CONSTRAINT con")
  := by decide +kernel

/-- parser/sql/datadef_test.go:482 -/
example : ((.dropIndex ⟨(I "db"), (I "scm"), (I "tbl")⟩ (I "idx") false) : Stmt).print env = .ok
  (ascii "DROP INDEX idx ON db.scm.tbl") := by decide +kernel

/-- parser/sql/datadef_test.go:493 -/
example : ((.dropIndex ⟨0, 0, (I "t")⟩ (I "idx") true) : Stmt).print env = .ok (ascii
  "DROP INDEX IF EXISTS idx ON t") := by decide +kernel

/-- parser/sql/datadef_test.go:516 -/
example : ((.dropDatabase false (I "db")) : Stmt).print env = .ok (ascii "DROP DATABASE db") :=
  by decide +kernel

/-- parser/sql/datadef_test.go:547 -/
example : ((.dropSchema false ⟨(I "db"), (I "scm")⟩) : Stmt).print env = .ok (ascii
  "DROP SCHEMA db.scm") := by decide +kernel

/-- parser/sql/datadef_test.go:556 -/
example : ((.dropSchema true ⟨0, (I "scm")⟩) : Stmt).print env = .ok (ascii
  "DROP SCHEMA IF EXISTS scm") := by decide +kernel

/-- parser/sql/datadef_test.go:147 -/
example : (⟨(I "fk_1"), [(I "c1")], ⟨(I "db"), (I "sc"), (I "tbl2")⟩, [], .noAction, .noAction⟩ :
  ForeignKey).print env = ascii "CONSTRAINT fk_1 FOREIGN KEY (c1) REFERENCES db.sc.tbl2" :=
  by decide +kernel

/-- parser/sql/datadef_test.go:156 -/
example : (⟨(I "fk_1"), [(I "c1")], ⟨(I "db"), (I "sc"), (I "tbl2")⟩, [(I "d2")], .noAction,
  .noAction⟩ : ForeignKey).print env = ascii
  "CONSTRAINT fk_1 FOREIGN KEY (c1) REFERENCES db.sc.tbl2 (d2)" := by decide +kernel

/-- parser/sql/datadef_test.go:166 -/
example : (⟨(I "fk_1"), [(I "c2"), (I "b2")], ⟨(I "db"), (I "sc"), (I "tbl1")⟩, [], .noAction,
  .noAction⟩ : ForeignKey).print env = ascii
  "CONSTRAINT fk_1 FOREIGN KEY (c2, b2) REFERENCES db.sc.tbl1" := by decide +kernel

/-- parser/sql/datadef_test.go:175 -/
example : (⟨(I "fk_1"), [(I "c2"), (I "b2")], ⟨(I "db"), (I "sc"), (I "tbl1")⟩, [(I "a1"), (I
  "c1")], .noAction, .noAction⟩ : ForeignKey).print env = ascii
  "CONSTRAINT fk_1 FOREIGN KEY (c2, b2) REFERENCES db.sc.tbl1 (a1, c1)" := by decide +kernel

/-- parser/sql/datadef_test.go:185 -/
example : (⟨(I "fk_1"), [(I "b2"), (I "c2")], ⟨(I "db"), (I "sc"), (I "tbl1")⟩, [(I "c1"), (I
  "a1")], .noAction, .noAction⟩ : ForeignKey).print env = ascii
  "CONSTRAINT fk_1 FOREIGN KEY (b2, c2) REFERENCES db.sc.tbl1 (c1, a1)" := by decide +kernel

/-- parser/sql/datadef_test.go:195 -/
example : (⟨(I "fk_1"), [(I "a3"), (I "b3"), (I "d3")], ⟨(I "db"), (I "sc"), (I "tbl1")⟩, [(I
  "a1"), (I "b1"), (I "d1")], .noAction, .noAction⟩ : ForeignKey).print env = ascii
  "CONSTRAINT fk_1 FOREIGN KEY (a3, b3, d3) REFERENCES db.sc.tbl1 (a1, b1, d1)" :=
  by decide +kernel

/-- parser/sql/datadef_test.go:213 -/
example : (⟨(I "fk_1"), [(I "a3"), (I "b3"), (I "d3")], ⟨(I "db"), (I "sc"), (I "tbl1")⟩, [(I
  "b1"), (I "a1"), (I "d1")], .noAction, .noAction⟩ : ForeignKey).print env = ascii
  "CONSTRAINT fk_1 FOREIGN KEY (a3, b3, d3) REFERENCES db.sc.tbl1 (b1, a1, d1)" :=
  by decide +kernel

/-- parser/sql/datadef_test.go:231 -/
example : (⟨(I "fk_1"), [(I "b3"), (I "d3"), (I "a3")], ⟨(I "db"), (I "sc"), (I "tbl1")⟩, [(I
  "b1"), (I "d1"), (I "a1")], .noAction, .noAction⟩ : ForeignKey).print env = ascii
  "CONSTRAINT fk_1 FOREIGN KEY (b3, d3, a3) REFERENCES db.sc.tbl1 (b1, d1, a1)" :=
  by decide +kernel

/-- parser/sql/datadef_test.go:249 -/
example : (⟨(I "fk_1"), [(I "b3"), (I "c3"), (I "d3")], ⟨(I "db"), (I "sc"), (I "tbl1")⟩, [(I
  "b1"), (I "c1"), (I "d1")], .noAction, .noAction⟩ : ForeignKey).print env = ascii
  "CONSTRAINT fk_1 FOREIGN KEY (b3, c3, d3) REFERENCES db.sc.tbl1 (b1, c1, d1)" :=
  by decide +kernel

/-- types/column_test.go:29 -/
example : (⟨.unknown, 0, false, false⟩ : ColumnType).print = .ok (ascii "UNKNOWN") :=
  by decide +kernel

/-- types/column_test.go:30 -/
example : (⟨.bool, 0, false, false⟩ : ColumnType).print = .ok (ascii "BOOL") := by decide +kernel

/-- types/column_test.go:31 -/
example : (⟨.bool, 10, false, false⟩ : ColumnType).print = .ok (ascii "BOOL") := by decide +kernel

/-- types/column_test.go:32 -/
example : (⟨.bool, 0, true, false⟩ : ColumnType).print = .ok (ascii "BOOL") := by decide +kernel

/-- types/column_test.go:33 -/
example : (⟨.string, 0, false, false⟩ : ColumnType).print = .panic := by decide +kernel

/-- types/column_test.go:34 -/
example : (⟨.string, 123, false, false⟩ : ColumnType).print = .ok (ascii "VARCHAR(123)") :=
  by decide +kernel

/-- types/column_test.go:35 -/
example : (⟨.string, 45, true, false⟩ : ColumnType).print = .ok (ascii "CHAR(45)") :=
  by decide +kernel

/-- types/column_test.go:36 -/
example : (⟨.string, 4294967294, false, false⟩ : ColumnType).print = .ok (ascii "TEXT") :=
  by decide +kernel

/-- types/column_test.go:37 -/
example : (⟨.bytes, 0, false, false⟩ : ColumnType).print = .panic := by decide +kernel

/-- types/column_test.go:38 -/
example : (⟨.bytes, 123, false, false⟩ : ColumnType).print = .ok (ascii "VARBINARY(123)") :=
  by decide +kernel

/-- types/column_test.go:39 -/
example : (⟨.bytes, 45, true, false⟩ : ColumnType).print = .ok (ascii "BINARY(45)") :=
  by decide +kernel

/-- types/column_test.go:40 -/
example : (⟨.bytes, 4294967294, false, false⟩ : ColumnType).print = .ok (ascii "BYTES") :=
  by decide +kernel

/-- types/column_test.go:41 -/
example : (⟨.float64, 0, false, false⟩ : ColumnType).print = .ok (ascii "DOUBLE") :=
  by decide +kernel

/-- types/column_test.go:42 -/
example : (⟨.float64, 10, false, false⟩ : ColumnType).print = .ok (ascii "DOUBLE") :=
  by decide +kernel

/-- types/column_test.go:43 -/
example : (⟨.float64, 0, true, false⟩ : ColumnType).print = .ok (ascii "DOUBLE") :=
  by decide +kernel

/-- types/column_test.go:44 -/
example : (⟨.int64, 2, false, false⟩ : ColumnType).print = .ok (ascii "SMALLINT") :=
  by decide +kernel

/-- types/column_test.go:45 -/
example : (⟨.int64, 4, false, false⟩ : ColumnType).print = .ok (ascii "INT") := by decide +kernel

/-- types/column_test.go:46 -/
example : (⟨.int64, 8, false, false⟩ : ColumnType).print = .ok (ascii "BIGINT") :=
  by decide +kernel

/-- types/column_test.go:47 -/
example : (⟨.int64, 2, true, false⟩ : ColumnType).print = .ok (ascii "SMALLINT") :=
  by decide +kernel

/-- types/column_test.go:48 -/
example : (⟨.int64, 1, false, false⟩ : ColumnType).print = .panic := by decide +kernel

/-- types/name_test.go:16 -/
example : (⟨I "db", I "scm", I "tbl"⟩ : TableName).print env = ascii "db.scm.tbl" :=
  by decide +kernel

/-- types/name_test.go:21 -/
example : (⟨I "db", I "scm"⟩ : SchemaName).print env = ascii "db.scm" := by decide +kernel

/-- types/name_test.go:33 -/
example : (⟨0, I "scm", I "tbl"⟩ : TableName).print env = ascii "scm.tbl" := by decide +kernel

/-- types/name_test.go:38 -/
example : (⟨0, I "scm"⟩ : SchemaName).print env = ascii "scm" := by decide +kernel

/-- types/name_test.go:49 -/
example : (⟨0, 0, I "tbl"⟩ : TableName).print env = ascii "tbl" := by decide +kernel

end Maho.Replay
