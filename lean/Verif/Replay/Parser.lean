import Verif.Replay.Env
import Verif.Replay.Same
/-
parser/parser_test.go on the model (written by tools/replay/parser.py).
-/
namespace Maho.Replay

/-- parser/parser_test.go:64 -/
example : ∀ s ∈ ["create foobar", "create temp index", "create unique table",
  "create table if not my-table"], parsed s = .error := by decide +kernel

/-- parser/parser_test.go:64 -/
example : ∀ s ∈ ["create table (my-table)", "create table .my-table", "create table my-schema."],
  parsed s = .error := by decide +kernel

/-- parser/parser_test.go:89 -/
example : ∀ s ∈ ["create temp table t (c int)", "create temporary table t (c int)",
  "create table test ()", "create table test (c)"], parsed s = .error := by decide +kernel

/-- parser/parser_test.go:93 -/
example : ∀ s ∈ ["create table (c int)", "create table t (c int, c bool)",
  "create table t (c int, d bool, c char(1))", "create table t (c int) default"], parsed s =
  .error := by decide +kernel

/-- parser/parser_test.go:97 -/
example : ∀ s ∈ ["create table . (c int)", "create table .t (c int)", "create table d. (c int)",
  "create table t (c int, )"], parsed s = .error := by decide +kernel

/-- parser/parser_test.go:101 -/
example : ∀ s ∈ ["create table t (c bool())", "create table t (c bool(1))",
  "create table t (c double())", "create table t (c double(1,2,3))"], parsed s = .error :=
  by decide +kernel

/-- parser/parser_test.go:105 -/
example : ∀ s ∈ ["create table t (c double(0))", "create table t (c double(256))",
  "create table t (c double(0,15))", "create table t (c double(256,15))"], parsed s = .error :=
  by decide +kernel

/-- parser/parser_test.go:109 -/
example : ∀ s ∈ ["create table t (c double(123,-1))", "create table t (c double(123,31))",
  "create table t (c int())", "create table t (c int(1,2))"], parsed s = .error :=
  by decide +kernel

/-- parser/parser_test.go:113 -/
example : ∀ s ∈ ["create table t (c int(0))", "create table t (c int(256))",
  "create table t (c char(1,2))", "create table t (c char(-1))"], parsed s = .error :=
  by decide +kernel

/-- parser/parser_test.go:117 -/
example : ∀ s ∈ ["create table t (c blob binary)", "create table t (c int binary)",
  "create table t (c bool binary)", "create table t (c char(123) binary)"], parsed s = .error :=
  by decide +kernel

/-- parser/parser_test.go:121 -/
example : ∀ s ∈ ["create table t (c double binary)", "create table t (c char null)",
  "create table t (c char null, d int)", "create table t (c char not null not null)"], parsed s =
  .error := by decide +kernel

/-- parser/parser_test.go:125 -/
example : ∀ s ∈ ["create table t (c char default)", "create table t (c char default, d int)",
  "create table t (c int default 0 default 1)", "create table t (c1 int primary, c2 bool)"],
  parsed s = .error := by decide +kernel

/-- parser/parser_test.go:302 -/
example : ∀ s ∈ ["create table t (c1 int unique primary key, c2 bool)",
  "create table t (c1 int, c2 bool, primary)", "create table t (c1 int, c2 bool, primary key)",
  "create table t (c1 int, c2 bool, primary key ())"], parsed s = .error := by decide +kernel

/-- parser/parser_test.go:306 -/
example : ∀ s ∈ ["create table t (c1 int primary key, c2 bool, primary key (c1))",
  "create table t (c1 int, c2 bool primary key, primary key (c1))",
  "create table t (c1 int not null constraint not_null, c2 bool)",
  "create table t (c1 int, c2 bool not null constraint not_null)"], parsed s = .error :=
  by decide +kernel

/-- parser/parser_test.go:551 -/
example : ∀ s ∈ ["create table t (c1 int constraint c1 constraint c1 not null, c2 bool)",
  "create table t (c1 int constraint c1, c2 bool)",
  "create table t (c1 int constraint c2_c1_unique primary key, c2 bool,\nunique (c2, c1))",
  "create table t (c1 int primary key, c2 bool,\nconstraint c1_primary unique (c2, c1))"], parsed
  s = .error := by decide +kernel

/-- parser/parser_test.go:717 -/
example : ∀ s ∈ ["create table t (c1 int, c2 int, c3 int, foreign key c1 references t2)",
  "create table t (c1 int, c2 int, c3 int, foreign key (c1,) references t2)",
  "create table t (c1 int, c2 int, c3 int, foreign key () references t2)",
  "create table t (c1 int, c2 int, c3 int, foreign key references t2)"], parsed s = .error :=
  by decide +kernel

/-- parser/parser_test.go:733 -/
example : ∀ s ∈
  ["create table t (c1 int, c2 int, c3 int,\nforeign key (c1, c2) references t2 p1)",
  "create table t (c1 int, c2 int, c3 int,\nforeign key (c1, c2) references t2 (p1,))",
  "create table t (c1 int, c2 int, c3 int,\nforeign key (c1, c2) t2 (p1, p2))",
  "create table t (c1 int, c2 int, c3 int,\nforeign (c1, c2) references t2 (p1, p2))"], parsed s =
  .error := by decide +kernel

/-- parser/parser_test.go:753 -/
example : ∀ s ∈ ["create table t (c1 int references t2 p1, c2 int, c3 int)",
  "create table t (c1 int references t2 (p1, p2), c2 int, c3 int)",
  "create table t (c1 int, c2 int, c3 int,\nforeign key (c1) references t2 delete restrict)",
  "create table t (c1 int, c2 int, c3 int,\nforeign key (c1) references t2 on delete action)"],
  parsed s = .error := by decide +kernel

/-- parser/parser_test.go:771 -/
example : ∀ s ∈
  ["create table t (c1 int, c2 int, c3 int,\nforeign key (c1) references t2 on delete restrict on delete no action)",
  "create table t (c1 int, c2 int, c3 int,\nforeign key (c1) references t2 on delete restrict on update restrict on delete no action)",
  "create table t (c1 int, c2 int, c3 int,\nforeign key (c1) references t2 on delete set on update cascade)"],
  parsed s = .error := by decide +kernel

/-- parser/parser_test.go:128 -/
example : parsed "create table t (c1 int2, c2 smallint, c3 int4, c4 integer, c5 bigint, c6 int8)"
  = .stmt (some (.createTable ⟨⟨0, 0, (I "t")⟩, [(I "c1"), (I "c2"), (I "c3"), (I "c4"), (I "c5"),
  (I "c6")], [⟨.int64, 2, false, false⟩, ⟨.int64, 2, false, false⟩, ⟨.int64, 4, false, false⟩,
  ⟨.int64, 4, false, false⟩, ⟨.int64, 8, false, false⟩, ⟨.int64, 8, false, false⟩], [none, none,
  none, none, none, none], false, [], []⟩)) := by decide +kernel

/-- parser/parser_test.go:151 -/
example : parsed "create table if not exists t (c int)" = .stmt (some (.createTable ⟨⟨0, 0, (I
  "t")⟩, [(I "c")], [⟨.int64, 4, false, false⟩], [none], true, [], []⟩)) := by decide +kernel

/-- parser/parser_test.go:161 -/
example : parsed "create table t (b1 bool, b2 boolean, d1 double, d2 double)" = .stmt (some
  (.createTable ⟨⟨0, 0, (I "t")⟩, [(I "b1"), (I "b2"), (I "d1"), (I "d2")], [⟨.bool, 1, false,
  false⟩, ⟨.bool, 1, false, false⟩, ⟨.float64, 8, false, false⟩, ⟨.float64, 8, false, false⟩],
  [none, none, none, none], false, [], []⟩)) := by decide +kernel

/-- parser/parser_test.go:180 -/
example : parsed "create table t (b1 binary, b2 varbinary(123), b3 blob, b4 bytes, b5 bytea)" =
  .stmt (some (.createTable ⟨⟨0, 0, (I "t")⟩, [(I "b1"), (I "b2"), (I "b3"), (I "b4"), (I "b5")],
  [⟨.bytes, 1, true, false⟩, ⟨.bytes, 123, false, false⟩, ⟨.bytes, 4294967294, false, false⟩,
  ⟨.bytes, 4294967294, false, false⟩, ⟨.bytes, 4294967294, false, false⟩], [none, none, none,
  none, none], false, [], []⟩)) := by decide +kernel

/-- parser/parser_test.go:201 -/
example : parsed "create table t (b1 binary(123), b2 varbinary(456), b3 blob(789))" = .stmt (some
  (.createTable ⟨⟨0, 0, (I "t")⟩, [(I "b1"), (I "b2"), (I "b3")], [⟨.bytes, 123, true, false⟩,
  ⟨.bytes, 456, false, false⟩, ⟨.bytes, 789, false, false⟩], [none, none, none], false, [], []⟩))
  := by decide +kernel

/-- parser/parser_test.go:218 -/
example : parsed "create table t (b1 bytea(456), b2 bytes(789))" = .stmt (some (.createTable ⟨⟨0,
  0, (I "t")⟩, [(I "b1"), (I "b2")], [⟨.bytes, 456, false, false⟩, ⟨.bytes, 789, false, false⟩],
  [none, none], false, [], []⟩)) := by decide +kernel

/-- parser/parser_test.go:230 -/
example : parsed "create table t (c1 char, c2 varchar(123), c3 text)" = .stmt (some (.createTable
  ⟨⟨0, 0, (I "t")⟩, [(I "c1"), (I "c2"), (I "c3")], [⟨.string, 1, true, false⟩, ⟨.string, 123,
  false, false⟩, ⟨.string, 4294967294, false, false⟩], [none, none, none], false, [], []⟩)) :=
  by decide +kernel

/-- parser/parser_test.go:247 -/
example : parsed "create table t (c1 char(123), c2 varchar(456), c3 text(789))" = .stmt (some
  (.createTable ⟨⟨0, 0, (I "t")⟩, [(I "c1"), (I "c2"), (I "c3")], [⟨.string, 123, true, false⟩,
  ⟨.string, 456, false, false⟩, ⟨.string, 789, false, false⟩], [none, none, none], false, [],
  []⟩)) := by decide +kernel

/-- parser/parser_test.go:264 -/
example : parsed "create table t (c1 varchar(64) default 'abcd', c2 int default 123)" = .stmt
  (some (.createTable ⟨⟨0, 0, (I "t")⟩, [(I "c1"), (I "c2")], [⟨.string, 64, false, false⟩,
  ⟨.int64, 4, false, false⟩], [(some (.lit (some (.str (ascii "abcd"))))), (some (.lit (some (.int
  123))))], false, [], []⟩)) := by decide +kernel

/-- parser/parser_test.go:276 -/
example : parsed "create table t (c1 boolean default true, c2 boolean not null)" = .stmt (some
  (.createTable ⟨⟨0, 0, (I "t")⟩, [(I "c1"), (I "c2")], [⟨.bool, 1, false, false⟩, ⟨.bool, 1,
  false, true⟩], [(some (.lit (some (.bool true)))), none], false, [], []⟩)) := by decide +kernel

/-- parser/parser_test.go:288 -/
example : parsed
  "create table t (c1 boolean default true not null,\nc2 boolean not null default true)" = .stmt
  (some (.createTable ⟨⟨0, 0, (I "t")⟩, [(I "c1"), (I "c2")], [⟨.bool, 1, false, true⟩, ⟨.bool, 1,
  false, true⟩], [(some (.lit (some (.bool true)))), (some (.lit (some (.bool true))))], false,
  [], []⟩)) := by decide +kernel

/-- parser/parser_test.go:308 -/
example : parsed "create table t (c1 int primary key, c2 bool)" = .stmt (some (.createTable ⟨⟨0,
  0, (I "t")⟩, [(I "c1"), (I "c2")], [⟨.int64, 4, false, false⟩, ⟨.bool, 1, false, false⟩], [none,
  none], false, [⟨.primary, (I "c1_primary"), -1, ⟨true, [(I "c1")], [false]⟩, none⟩], []⟩)) :=
  by decide +kernel

/-- parser/parser_test.go:332 -/
example : parsed "create table t (c1 int unique, c2 bool)" = .stmt (some (.createTable ⟨⟨0, 0, (I
  "t")⟩, [(I "c1"), (I "c2")], [⟨.int64, 4, false, false⟩, ⟨.bool, 1, false, false⟩], [none,
  none], false, [⟨.unique, (I "c1_unique"), -1, ⟨true, [(I "c1")], [false]⟩, none⟩], []⟩)) :=
  by decide +kernel

/-- parser/parser_test.go:356 -/
example : parsed "create table t (c1 int, c2 bool, primary key (c1))" = .stmt (some (.createTable
  ⟨⟨0, 0, (I "t")⟩, [(I "c1"), (I "c2")], [⟨.int64, 4, false, false⟩, ⟨.bool, 1, false, false⟩],
  [none, none], false, [⟨.primary, (I "c1_primary"), -1, ⟨true, [(I "c1")], [false]⟩, none⟩],
  []⟩)) := by decide +kernel

/-- parser/parser_test.go:380 -/
example : parsed "create table t (c1 int, c2 bool, primary key (c1 desc))" = .stmt (some
  (.createTable ⟨⟨0, 0, (I "t")⟩, [(I "c1"), (I "c2")], [⟨.int64, 4, false, false⟩, ⟨.bool, 1,
  false, false⟩], [none, none], false, [⟨.primary, (I "c1_primary"), -1, ⟨true, [(I "c1")],
  [true]⟩, none⟩], []⟩)) := by decide +kernel

/-- parser/parser_test.go:404 -/
example : parsed "create table t (c1 int unique, c2 bool unique, primary key (c1 desc, c2 asc))" =
  .stmt (some (.createTable ⟨⟨0, 0, (I "t")⟩, [(I "c1"), (I "c2")], [⟨.int64, 4, false, false⟩,
  ⟨.bool, 1, false, false⟩], [none, none], false, [⟨.unique, (I "c1_unique"), -1, ⟨true, [(I
  "c1")], [false]⟩, none⟩, ⟨.unique, (I "c2_unique"), -1, ⟨true, [(I "c2")], [false]⟩, none⟩,
  ⟨.primary, (I "c1_c2_primary"), -1, ⟨true, [(I "c1"), (I "c2")], [true, false]⟩, none⟩], []⟩))
  := by decide +kernel

/-- parser/parser_test.go:451 -/
example : parsed "create table t (c1 int primary key, c2 bool, unique (c2, c1))" = .stmt (some
  (.createTable ⟨⟨0, 0, (I "t")⟩, [(I "c1"), (I "c2")], [⟨.int64, 4, false, false⟩, ⟨.bool, 1,
  false, false⟩], [none, none], false, [⟨.primary, (I "c1_primary"), -1, ⟨true, [(I "c1")],
  [false]⟩, none⟩, ⟨.unique, (I "c2_c1_unique"), -1, ⟨true, [(I "c2"), (I "c1")], [false, false]⟩,
  none⟩], []⟩)) := by decide +kernel

/-- parser/parser_test.go:488 -/
example : parsed
  "create table t (c1 int constraint con1 primary key, c2 bool,\nconstraint con2 unique (c2, c1))"
  = .stmt (some (.createTable ⟨⟨0, 0, (I "t")⟩, [(I "c1"), (I "c2")], [⟨.int64, 4, false, false⟩,
  ⟨.bool, 1, false, false⟩], [none, none], false, [⟨.primary, (I "con1"), -1, ⟨true, [(I "c1")],
  [false]⟩, none⟩, ⟨.unique, (I "con2"), -1, ⟨true, [(I "c2"), (I "c1")], [false, false]⟩, none⟩],
  []⟩)) := by decide +kernel

/-- parser/parser_test.go:526 -/
example : parsed
  "create table t (c1 int constraint not_null not null,\nc2 bool constraint dflt default true)" =
  .stmt (some (.createTable ⟨⟨0, 0, (I "t")⟩, [(I "c1"), (I "c2")], [⟨.int64, 4, false, true⟩,
  ⟨.bool, 1, false, false⟩], [none, (some (.lit (some (.bool true))))], false, [⟨.notNull, (I
  "not_null"), 0, .zero, none⟩, ⟨.default, (I "dflt"), 1, .zero, none⟩], []⟩)) :=
  by decide +kernel

/-- parser/parser_test.go:569 -/
example : parsed "create table t (c1 int check(c1 > 1), check(c1 < c2), c2 int check(c2 > 2))" =
  .stmt (some (.createTable ⟨⟨0, 0, (I "t")⟩, [(I "c1"), (I "c2")], [⟨.int64, 4, false, false⟩,
  ⟨.int64, 4, false, false⟩], [none, none], false, [⟨.check, 0, 0, .zero, (some (.binary
  .greaterThan (.ref (I "c1") []) (.lit (some (.int 1)))))⟩, ⟨.check, 0, -1, .zero, (some (.binary
  .lessThan (.ref (I "c1") []) (.ref (I "c2") [])))⟩, ⟨.check, 0, 1, .zero, (some (.binary
  .greaterThan (.ref (I "c2") []) (.lit (some (.int 2)))))⟩], []⟩)) := by decide +kernel

/-- parser/parser_test.go:610 -/
example : parsed
  "create table t (c1 int constraint check_1 not null constraint check_2 default 1,\nc2 int check(true))"
  = .stmt (some (.createTable ⟨⟨0, 0, (I "t")⟩, [(I "c1"), (I "c2")], [⟨.int64, 4, false, true⟩,
  ⟨.int64, 4, false, false⟩], [(some (.lit (some (.int 1)))), none], false, [⟨.notNull, (I
  "check_1"), 0, .zero, none⟩, ⟨.default, (I "check_2"), 0, .zero, none⟩, ⟨.check, 0, 1, .zero,
  (some (.lit (some (.bool true))))⟩], []⟩)) := by decide +kernel

/-- parser/parser_test.go:640 -/
example : parsed
  "create table t (c1 int references t2 on update cascade,\nc2 int references t3 (p1) on update set default on delete set null)"
  = .stmt (some (.createTable ⟨⟨0, 0, (I "t")⟩, [(I "c1"), (I "c2")], [⟨.int64, 4, false, false⟩,
  ⟨.int64, 4, false, false⟩], [none, none], false, [], [⟨0, [(I "c1")], ⟨0, 0, (I "t2")⟩, [],
  .noAction, .cascade⟩, ⟨0, [(I "c2")], ⟨0, 0, (I "t3")⟩, [(I "p1")], .setNull, .setDefault⟩]⟩))
  := by decide +kernel

/-- parser/parser_test.go:667 -/
example : parsed
  "create table t (c1 int, c2 int, c3 int, c4 int constraint foreign_1 not null,\nforeign key (c1, c2) references t2 on delete cascade,\nconstraint fkey foreign key (c3, c4, c2) references t3 (p1, p2, p3) on update no action)"
  = .stmt (some (.createTable ⟨⟨0, 0, (I "t")⟩, [(I "c1"), (I "c2"), (I "c3"), (I "c4")],
  [⟨.int64, 4, false, false⟩, ⟨.int64, 4, false, false⟩, ⟨.int64, 4, false, false⟩, ⟨.int64, 4,
  false, true⟩], [none, none, none, none], false, [⟨.notNull, (I "foreign_1"), 3, .zero, none⟩],
  [⟨0, [(I "c1"), (I "c2")], ⟨0, 0, (I "t2")⟩, [], .cascade, .noAction⟩, ⟨(I "fkey"), [(I "c3"),
  (I "c4"), (I "c2")], ⟨0, 0, (I "t3")⟩, [(I "p1"), (I "p2"), (I "p3")], .noAction, .noAction⟩]⟩))
  := by decide +kernel

/-- parser/parser_test.go:812 -/
example : ∀ s ∈ ["create index unique idx on tbl (c1)", "create index idx tbl (c1)",
  "create index tbl (c1)", "create index idx on tbl using (c1 DESC, c2)"], parsed s = .error :=
  by decide +kernel

/-- parser/parser_test.go:816 -/
example : ∀ s ∈ ["create index idx on tbl using tree (c1 DESC, c2)"], parsed s = .error :=
  by decide +kernel

/-- parser/parser_test.go:817 -/
example : parsed "create index idx on tbl (c1 DESC, c2)" = .stmt (some (.createIndex (I "idx") ⟨0,
  0, (I "tbl")⟩ ⟨false, [(I "c1"), (I "c2")], [true, false]⟩ false)) := by decide +kernel

/-- parser/parser_test.go:828 -/
example : parsed "create unique index if not exists idx on tbl using btree (c1)" = .stmt (some
  (.createIndex (I "idx") ⟨0, 0, (I "tbl")⟩ ⟨true, [(I "c1")], [false]⟩ true)) :=
  by decide +kernel

/-- parser/parser_test.go:867 -/
example : ∀ s ∈ ["insert into t", "insert t values (1)", "insert into t (1)",
  "insert into t values (1"], parsed s = .error := by decide +kernel

/-- parser/parser_test.go:871 -/
example : ∀ s ∈ ["insert into t values 1)", "insert into t values (1, )",
  "insert into t values (1, 2),", "insert into t values (1, 2) (3)"], parsed s = .error :=
  by decide +kernel

/-- parser/parser_test.go:875 -/
example : ∀ s ∈ ["insert into t () values (1, 2)", "insert into t (a values (1, 2)",
  "insert into t (a, ) values (1, 2)", "insert into t (a, a) values (1, 2)"], parsed s = .error :=
  by decide +kernel

/-- parser/parser_test.go:879 -/
example : ∀ s ∈ ["insert into t (a, b, a) values (1, 2)"], parsed s = .error := by decide +kernel

/-- parser/parser_test.go:880 -/
example : parsed "insert into t values (1, 'abc', true)" = .stmt (some (.insert ⟨0, 0, (I "t")⟩ []
  [[(some (.lit (some (.int 1)))), (some (.lit (some (.str (ascii "abc"))))), (some (.lit (some
  (.bool true))))]])) := by decide +kernel

/-- parser/parser_test.go:889 -/
example : parsed "insert into t values (1, 'abc', true), (2, 'def', false)" = .stmt (some (.insert
  ⟨0, 0, (I "t")⟩ [] [[(some (.lit (some (.int 1)))), (some (.lit (some (.str (ascii "abc"))))),
  (some (.lit (some (.bool true))))], [(some (.lit (some (.int 2)))), (some (.lit (some (.str
  (ascii "def"))))), (some (.lit (some (.bool false))))]])) := by decide +kernel

/-- parser/parser_test.go:899 -/
example : parsed "insert into t values (NULL, 'abc', NULL)" = .stmt (some (.insert ⟨0, 0, (I "t")⟩
  [] [[(some (.lit none)), (some (.lit (some (.str (ascii "abc"))))), (some (.lit none))]])) :=
  by decide +kernel

/-- parser/parser_test.go:1017 -/
example : ∀ s ∈ ["select", "select *, * from t", "select c, * from t", "select c, from t"], parsed
  s = .error := by decide +kernel

/-- parser/parser_test.go:1021 -/
example : ∀ s ∈ ["select t.c, c, * from t", "select * from t1, t2 full outer join t3",
  "select * from t1 inner join t2", "select * from t1 inner join t2"], parsed s = .error :=
  by decide +kernel

/-- parser/parser_test.go:1307 -/
example : ∀ s ∈ ["select * from t1 inner join t2",
  "select * from t1 inner join t2 on c1 > 5 using (c1, c2)",
  "select * from t1 cross join t2 on c1 > 5", "select * from t1 cross join t2 using (c1, c2)"],
  parsed s = .error := by decide +kernel

/-- parser/parser_test.go:1311 -/
example : ∀ s ∈ ["select * from t1 inner join t2 using ()",
  "select * from t1 inner join t2 using (c1, c1)",
  "select * from (values (1, 'abc', true)) as v1 (",
  "select * from (values (1, 'abc', true)) as v1 )"], parsed s = .error := by decide +kernel

/-- parser/parser_test.go:1381 -/
example : ∀ s ∈ ["select * from (values (1, 'abc', true)) as v1 (,",
  "select * from (values (1, 'abc', true)) as v1 (a,)",
  "select * from (values (1, 'abc', true)) as v1 (a b)",
  "select * from (select * from t1) as s1 ("], parsed s = .error := by decide +kernel

/-- parser/parser_test.go:1416 -/
example : ∀ s ∈ ["select * from (select * from t1) as s1 )",
  "select * from (select * from t1) as s1 (,", "select * from (select * from t1) as s1 (a,)",
  "select * from (select * from t1) as s1 (a b)"], parsed s = .error := by decide +kernel

/-- parser/parser_test.go:1482 -/
example : ∀ s ∈ ["select c where c > 5 from t", "select c from t group",
  "select c from t group by", "select c from t group by c where c > 5"], parsed s = .error :=
  by decide +kernel

/-- parser/parser_test.go:1486 -/
example : ∀ s ∈ ["select c from t group by c having",
  "select c from t group by c, d, having c > 5"], parsed s = .error := by decide +kernel

/-- parser/parser_test.go:1022 -/
example : parsed "select *" = .stmt (some (.query (.select [] none none [] none []))) :=
  by decide +kernel

/-- parser/parser_test.go:1026 -/
example : parsed "select * from t" = .stmt (some (.query (.select [] (some (.table ⟨0, 0, (I "t")⟩
  0)) none [] none []))) := by decide +kernel

/-- parser/parser_test.go:1032 -/
example : parsed "select * from t where x > 1" = .stmt (some (.query (.select [] (some (.table ⟨0,
  0, (I "t")⟩ 0)) (some (.binary .greaterThan (.ref (I "x") []) (.lit (some (.int 1))))) [] none
  []))) := by decide +kernel

/-- parser/parser_test.go:1040 -/
example : parsed "select * from t@i" = .stmt (some (.query (.select [] (some (.index ⟨0, 0, (I
  "t")⟩ (I "i") 0)) none [] none []))) := by decide +kernel

/-- parser/parser_test.go:1049 -/
example : parsed "select * from t@i where x > 1" = .stmt (some (.query (.select [] (some (.index
  ⟨0, 0, (I "t")⟩ (I "i") 0)) (some (.binary .greaterThan (.ref (I "x") []) (.lit (some (.int
  1))))) [] none []))) := by decide +kernel

/-- parser/parser_test.go:1060 -/
example : parsed "select * from t where x = (show schema)" = .stmt (some (.query (.select [] (some
  (.table ⟨0, 0, (I "t")⟩ 0)) (some (.binary .equal (.ref (I "x") []) (.subquery .scalar .add none
  (.show Kw.SCHEMA)))) [] none []))) := by decide +kernel

/-- parser/parser_test.go:1076 -/
example : parsed "select * from (table t) as t" = .stmt (some (.query (.select [] (some (.stmt
  (.select [] (some (.table ⟨0, 0, (I "t")⟩ 0)) none [] none []) (I "t") [])) none [] none [])))
  := by decide +kernel

/-- parser/parser_test.go:1089 -/
example : parsed "select c from t" = .stmt (some (.query (.select [(.expr (.ref (I "c") []) 0)]
  (some (.table ⟨0, 0, (I "t")⟩ 0)) none [] none []))) := by decide +kernel

/-- parser/parser_test.go:1098 -/
example : parsed "select c1, c2, t.c3 from t" = .stmt (some (.query (.select [(.expr (.ref (I
  "c1") []) 0), (.expr (.ref (I "c2") []) 0), (.expr (.ref (I "t") [(I "c3")]) 0)] (some (.table
  ⟨0, 0, (I "t")⟩ 0)) none [] none []))) := by decide +kernel

/-- parser/parser_test.go:1109 -/
example : parsed "select t.*, c1, c2 from t" = .stmt (some (.query (.select [(.table (I "t")),
  (.expr (.ref (I "c1") []) 0), (.expr (.ref (I "c2") []) 0)] (some (.table ⟨0, 0, (I "t")⟩ 0))
  none [] none []))) := by decide +kernel

/-- parser/parser_test.go:1120 -/
example : parsed "select c1, t.*, c2 from t" = .stmt (some (.query (.select [(.expr (.ref (I "c1")
  []) 0), (.table (I "t")), (.expr (.ref (I "c2") []) 0)] (some (.table ⟨0, 0, (I "t")⟩ 0)) none
  [] none []))) := by decide +kernel

/-- parser/parser_test.go:1131 -/
example : parsed "select c1, c2, t.* from t" = .stmt (some (.query (.select [(.expr (.ref (I "c1")
  []) 0), (.expr (.ref (I "c2") []) 0), (.table (I "t"))] (some (.table ⟨0, 0, (I "t")⟩ 0)) none
  [] none []))) := by decide +kernel

/-- parser/parser_test.go:1142 -/
example : parsed "select t2.c1 as a1, c2 as a2 from t" = .stmt (some (.query (.select [(.expr
  (.ref (I "t2") [(I "c1")]) (I "a1")), (.expr (.ref (I "c2") []) (I "a2"))] (some (.table ⟨0, 0,
  (I "t")⟩ 0)) none [] none []))) := by decide +kernel

/-- parser/parser_test.go:1158 -/
example : parsed "select t2.c1 a1, c2 a2 from t" = .stmt (some (.query (.select [(.expr (.ref (I
  "t2") [(I "c1")]) (I "a1")), (.expr (.ref (I "c2") []) (I "a2"))] (some (.table ⟨0, 0, (I "t")⟩
  0)) none [] none []))) := by decide +kernel

/-- parser/parser_test.go:1174 -/
example : parsed "select c1 + c2 as a from t" = .stmt (some (.query (.select [(.expr (.binary .add
  (.ref (I "c1") []) (.ref (I "c2") [])) (I "a"))] (some (.table ⟨0, 0, (I "t")⟩ 0)) none [] none
  []))) := by decide +kernel

/-- parser/parser_test.go:1189 -/
example : parsed "select t1.c1, t2.c2 from t1, t2" = .stmt (some (.query (.select [(.expr (.ref (I
  "t1") [(I "c1")]) 0), (.expr (.ref (I "t2") [(I "c2")]) 0)] (some (.join (.table ⟨0, 0, (I
  "t1")⟩ 0) (.table ⟨0, 0, (I "t2")⟩ 0) .crossJoin none [])) none [] none []))) :=
  by decide +kernel

/-- parser/parser_test.go:1207 -/
example : parsed "select * from t1, t2, t3" = .stmt (some (.query (.select [] (some (.join (.join
  (.table ⟨0, 0, (I "t1")⟩ 0) (.table ⟨0, 0, (I "t2")⟩ 0) .crossJoin none []) (.table ⟨0, 0, (I
  "t3")⟩ 0) .crossJoin none [])) none [] none []))) := by decide +kernel

/-- parser/parser_test.go:1227 -/
example : parsed "select * from t1 join t2 using (c1), t3" = .stmt (some (.query (.select [] (some
  (.join (.join (.table ⟨0, 0, (I "t1")⟩ 0) (.table ⟨0, 0, (I "t2")⟩ 0) .join none [(I "c1")])
  (.table ⟨0, 0, (I "t3")⟩ 0) .crossJoin none [])) none [] none []))) := by decide +kernel

/-- parser/parser_test.go:1248 -/
example : parsed "select * from (t1, t2) right join t3 using (c1)" = .stmt (some (.query (.select
  [] (some (.join (.join (.table ⟨0, 0, (I "t1")⟩ 0) (.table ⟨0, 0, (I "t2")⟩ 0) .crossJoin none
  []) (.table ⟨0, 0, (I "t3")⟩ 0) .rightJoin none [(I "c1")])) none [] none []))) :=
  by decide +kernel

/-- parser/parser_test.go:1269 -/
example : parsed "select * from t1 inner join t2 on c1 > 5" = .stmt (some (.query (.select []
  (some (.join (.table ⟨0, 0, (I "t1")⟩ 0) (.table ⟨0, 0, (I "t2")⟩ 0) .join (some (.binary
  .greaterThan (.ref (I "c1") []) (.lit (some (.int 5))))) [])) none [] none []))) :=
  by decide +kernel

/-- parser/parser_test.go:1285 -/
example : parsed "select * from t1 inner join t2 using (c1, c2, c3)" = .stmt (some (.query
  (.select [] (some (.join (.table ⟨0, 0, (I "t1")⟩ 0) (.table ⟨0, 0, (I "t2")⟩ 0) .join none [(I
  "c1"), (I "c2"), (I "c3")])) none [] none []))) := by decide +kernel

/-- parser/parser_test.go:1313 -/
example : parsed "select * from (select * from t1) as s1 join t2 using (c1)" = .stmt (some (.query
  (.select [] (some (.join (.stmt (.select [] (some (.table ⟨0, 0, (I "t1")⟩ 0)) none [] none [])
  (I "s1") []) (.table ⟨0, 0, (I "t2")⟩ 0) .join none [(I "c1")])) none [] none []))) :=
  by decide +kernel

/-- parser/parser_test.go:1333 -/
example : parsed "select * from t2 join (values (1, 'abc', true)) as v1 using (c1, c2)" = .stmt
  (some (.query (.select [] (some (.join (.table ⟨0, 0, (I "t2")⟩ 0) (.stmt (.values [[(.lit (some
  (.int 1))), (.lit (some (.str (ascii "abc")))), (.lit (some (.bool true)))]]) (I "v1") []) .join
  none [(I "c1"), (I "c2")])) none [] none []))) := by decide +kernel

/-- parser/parser_test.go:1353 -/
example : parsed
  "select * from (select * from t1) s1 join (values (1, 'abc', true)) as v1 using (c1, c2)" =
  .stmt (some (.query (.select [] (some (.join (.stmt (.select [] (some (.table ⟨0, 0, (I "t1")⟩
  0)) none [] none []) (I "s1") []) (.stmt (.values [[(.lit (some (.int 1))), (.lit (some (.str
  (ascii "abc")))), (.lit (some (.bool true)))]]) (I "v1") []) .join none [(I "c1"), (I "c2")]))
  none [] none []))) := by decide +kernel

/-- parser/parser_test.go:1384 -/
example : parsed "select * from (values (1, 'abc', true)) as v1" = .stmt (some (.query (.select []
  (some (.stmt (.values [[(.lit (some (.int 1))), (.lit (some (.str (ascii "abc")))), (.lit (some
  (.bool true)))]]) (I "v1") [])) none [] none []))) := by decide +kernel

/-- parser/parser_test.go:1397 -/
example : parsed "select * from (values (1, 'abc', true)) as v1 (c1, c2, c3)" = .stmt (some
  (.query (.select [] (some (.stmt (.values [[(.lit (some (.int 1))), (.lit (some (.str (ascii
  "abc")))), (.lit (some (.bool true)))]]) (I "v1") [(I "c1"), (I "c2"), (I "c3")])) none [] none
  []))) := by decide +kernel

/-- parser/parser_test.go:1420 -/
example : parsed "select * from (select * from t1) as s1" = .stmt (some (.query (.select [] (some
  (.stmt (.select [] (some (.table ⟨0, 0, (I "t1")⟩ 0)) none [] none []) (I "s1") [])) none []
  none []))) := by decide +kernel

/-- parser/parser_test.go:1433 -/
example : parsed "select * from (select * from t1) as s1 (c1)" = .stmt (some (.query (.select []
  (some (.stmt (.select [] (some (.table ⟨0, 0, (I "t1")⟩ 0)) none [] none []) (I "s1") [(I
  "c1")])) none [] none []))) := by decide +kernel

/-- parser/parser_test.go:1447 -/
example : parsed "select * from (select * from t1) as s1 (c1, c2)" = .stmt (some (.query (.select
  [] (some (.stmt (.select [] (some (.table ⟨0, 0, (I "t1")⟩ 0)) none [] none []) (I "s1") [(I
  "c1"), (I "c2")])) none [] none []))) := by decide +kernel

/-- parser/parser_test.go:1464 -/
example : parsed "select * from (select * from t1) as s1 (c1, c2, c3)" = .stmt (some (.query
  (.select [] (some (.stmt (.select [] (some (.table ⟨0, 0, (I "t1")⟩ 0)) none [] none []) (I
  "s1") [(I "c1"), (I "c2"), (I "c3")])) none [] none []))) := by decide +kernel

/-- parser/parser_test.go:1488 -/
example : parsed "select c from t group by c" = .stmt (some (.query (.select [(.expr (.ref (I "c")
  []) 0)] (some (.table ⟨0, 0, (I "t")⟩ 0)) none [(.ref (I "c") [])] none []))) :=
  by decide +kernel

/-- parser/parser_test.go:1498 -/
example : parsed "select c from t group by c, d, e + f" = .stmt (some (.query (.select [(.expr
  (.ref (I "c") []) 0)] (some (.table ⟨0, 0, (I "t")⟩ 0)) none [(.ref (I "c") []), (.ref (I "d")
  []), (.binary .add (.ref (I "e") []) (.ref (I "f") []))] none []))) := by decide +kernel

/-- parser/parser_test.go:1511 -/
example : parsed "select c from t group by c having c > 1" = .stmt (some (.query (.select [(.expr
  (.ref (I "c") []) 0)] (some (.table ⟨0, 0, (I "t")⟩ 0)) none [(.ref (I "c") [])] (some (.binary
  .greaterThan (.ref (I "c") []) (.lit (some (.int 1))))) []))) := by decide +kernel

/-- parser/parser_test.go:1523 -/
example : parsed "select t1.c1, t2.c2 from (t1 cross join t2)" = .stmt (some (.query (.select
  [(.expr (.ref (I "t1") [(I "c1")]) 0), (.expr (.ref (I "t2") [(I "c2")]) 0)] (some (.join
  (.table ⟨0, 0, (I "t1")⟩ 0) (.table ⟨0, 0, (I "t2")⟩ 0) .crossJoin none [])) none [] none [])))
  := by decide +kernel

/-- parser/parser_test.go:1541 -/
example : parsed "select * from ((t1 cross join t2) cross join t3)" = .stmt (some (.query (.select
  [] (some (.join (.join (.table ⟨0, 0, (I "t1")⟩ 0) (.table ⟨0, 0, (I "t2")⟩ 0) .crossJoin none
  []) (.table ⟨0, 0, (I "t3")⟩ 0) .crossJoin none [])) none [] none []))) := by decide +kernel

/-- parser/parser_test.go:1561 -/
example : parsed "select * from ((t1 join t2 using (c1)) cross join t3)" = .stmt (some (.query
  (.select [] (some (.join (.join (.table ⟨0, 0, (I "t1")⟩ 0) (.table ⟨0, 0, (I "t2")⟩ 0) .join
  none [(I "c1")]) (.table ⟨0, 0, (I "t3")⟩ 0) .crossJoin none [])) none [] none []))) :=
  by decide +kernel

/-- parser/parser_test.go:1582 -/
example : parsed "select * from ((t1 cross join t2) right join t3 using (c1))" = .stmt (some
  (.query (.select [] (some (.join (.join (.table ⟨0, 0, (I "t1")⟩ 0) (.table ⟨0, 0, (I "t2")⟩ 0)
  .crossJoin none []) (.table ⟨0, 0, (I "t3")⟩ 0) .rightJoin none [(I "c1")])) none [] none [])))
  := by decide +kernel

/-- parser/parser_test.go:1603 -/
example : parsed "select * from (t1 join t2 on c1 > 5)" = .stmt (some (.query (.select [] (some
  (.join (.table ⟨0, 0, (I "t1")⟩ 0) (.table ⟨0, 0, (I "t2")⟩ 0) .join (some (.binary .greaterThan
  (.ref (I "c1") []) (.lit (some (.int 5))))) [])) none [] none []))) := by decide +kernel

/-- parser/parser_test.go:1619 -/
example : parsed "select * from (t1 join t2 using (c1, c2, c3))" = .stmt (some (.query (.select []
  (some (.join (.table ⟨0, 0, (I "t1")⟩ 0) (.table ⟨0, 0, (I "t2")⟩ 0) .join none [(I "c1"), (I
  "c2"), (I "c3")])) none [] none []))) := by decide +kernel

/-- parser/parser_test.go:1663 -/
example : ∀ s ∈ ["values", "values (", "values ()", "values (1"], parsed s = .error :=
  by decide +kernel

/-- parser/parser_test.go:1667 -/
example : ∀ s ∈ ["values (1, 2", "values (1 2)", "values (1, 2), (3)",
  "values (1, 2, 3), (4, 5), (6, 7, 8)"], parsed s = .error := by decide +kernel

/-- parser/parser_test.go:1671 -/
example : parsed "values (1, 'abc', true)" = .stmt (some (.query (.values [[(.lit (some (.int
  1))), (.lit (some (.str (ascii "abc")))), (.lit (some (.bool true)))]]))) := by decide +kernel

/-- parser/parser_test.go:1679 -/
example : parsed "values (1, 'abc', true), (2, 'def', false)" = .stmt (some (.query (.values
  [[(.lit (some (.int 1))), (.lit (some (.str (ascii "abc")))), (.lit (some (.bool true)))],
  [(.lit (some (.int 2))), (.lit (some (.str (ascii "def")))), (.lit (some (.bool false)))]]))) :=
  by decide +kernel

/-- parser/parser_test.go:1713 -/
example : ∀ s ∈ ["delete", "delete t", "delete from", "delete from t1, t2"], parsed s = .error :=
  by decide +kernel

/-- parser/parser_test.go:1717 -/
example : ∀ s ∈ ["delete from t where"], parsed s = .error := by decide +kernel

/-- parser/parser_test.go:1718 -/
example : parsed "delete from t" = .stmt (some (.delete ⟨0, 0, (I "t")⟩ none)) :=
  by decide +kernel

/-- parser/parser_test.go:1724 -/
example : parsed "delete from t where c > 1" = .stmt (some (.delete ⟨0, 0, (I "t")⟩ (some (.binary
  .greaterThan (.ref (I "c") []) (.lit (some (.int 1))))))) := by decide +kernel

/-- parser/parser_test.go:1757 -/
example : ∀ s ∈ ["update", "update t", "update t set", "update set t c = 5"], parsed s = .error :=
  by decide +kernel

/-- parser/parser_test.go:1761 -/
example : ∀ s ∈ ["update t c = 5", "update t set c = 5,", "update t set c = 5, where",
  "update t set c = 5 where"], parsed s = .error := by decide +kernel

/-- parser/parser_test.go:1765 -/
example : ∀ s ∈ ["update t set where c = 6"], parsed s = .error := by decide +kernel

/-- parser/parser_test.go:1766 -/
example : parsed "update t set c = 5" = .stmt (some (.update ⟨0, 0, (I "t")⟩ [((I "c"), (some
  (.lit (some (.int 5)))))] none)) := by decide +kernel

/-- parser/parser_test.go:1775 -/
example : parsed "update t set c = 0 where c > 1" = .stmt (some (.update ⟨0, 0, (I "t")⟩ [((I
  "c"), (some (.lit (some (.int 0)))))] (some (.binary .greaterThan (.ref (I "c") []) (.lit (some
  (.int 1))))))) := by decide +kernel

/-- parser/parser_test.go:1786 -/
example : parsed "update t set c = default where c > 1" = .stmt (some (.update ⟨0, 0, (I "t")⟩
  [((I "c"), none)] (some (.binary .greaterThan (.ref (I "c") []) (.lit (some (.int 1))))))) :=
  by decide +kernel

/-- parser/parser_test.go:1797 -/
example : parsed "update t set c1 = 1, c2 = 2, c3 = 3" = .stmt (some (.update ⟨0, 0, (I "t")⟩ [((I
  "c1"), (some (.lit (some (.int 1))))), ((I "c2"), (some (.lit (some (.int 2))))), ((I "c3"),
  (some (.lit (some (.int 3)))))] none)) := by decide +kernel

/-- parser/parser_test.go:1833 -/
example : ∀ s ∈ ["create database", "create database test with", "create database test with path",
  "create database test with path = "], parsed s = .error := by decide +kernel

/-- parser/parser_test.go:1843 -/
example : ∀ s ∈ ["create database test with 'path' = value",
  "create database test with create = value", "create database test with path = 'string' engine"],
  parsed s = .error := by decide +kernel

/-- parser/parser_test.go:1834 -/
example : parsed "create database test" = .stmt (some (.createDatabase (I "test") [])) :=
  by decide +kernel

/-- parser/parser_test.go:1846 -/
example : parsed "create database test with path = 'string' engine 'fast'" = .stmt (some
  (.createDatabase (I "test") [((I "path"), (ascii "string")), ((I "engine"), (ascii "fast"))]))
  := by decide +kernel

/-- parser/parser_test.go:1883 -/
example : ∀ s ∈ ["alter table tbl", "alter table exists tbl",
  "alter table tbl add constraint con1 foreign key (c1) references rtbl,\nadd constraint con2 foreign key (c2) references tbl2, fail",
  "alter table tbl drop con"], parsed s = .error := by decide +kernel

/-- parser/parser_test.go:1988 -/
example : ∀ s ∈ ["alter table tbl constraint if exists con",
  "alter table tbl drop constraint if con", "alter table tbl alter column drop default",
  "alter table tbl alter c1 default"], parsed s = .error := by decide +kernel

/-- parser/parser_test.go:2004 -/
example : ∀ s ∈ ["alter table tbl alter c1 drop null"], parsed s = .error := by decide +kernel

/-- parser/parser_test.go:1885 -/
example : parsed "alter table tbl add foreign key (c1, c2) references rtbl" = .stmt (some
  (.alterTable ⟨0, 0, (I "tbl")⟩ [(.addForeignKey ⟨0, [(I "c1"), (I "c2")], ⟨0, 0, (I "rtbl")⟩,
  [], .noAction, .noAction⟩)])) := by decide +kernel

/-- parser/parser_test.go:1902 -/
example : parsed "alter table tbl add constraint con foreign key (c1) references rtbl" = .stmt
  (some (.alterTable ⟨0, 0, (I "tbl")⟩ [(.addForeignKey ⟨(I "con"), [(I "c1")], ⟨0, 0, (I
  "rtbl")⟩, [], .noAction, .noAction⟩)])) := by decide +kernel

/-- parser/parser_test.go:1917 -/
example : parsed
  "alter table tbl add constraint con1 foreign key (c1) references rtbl,\nadd constraint con2 foreign key (c2) references tbl2"
  = .stmt (some (.alterTable ⟨0, 0, (I "tbl")⟩ [(.addForeignKey ⟨(I "con1"), [(I "c1")], ⟨0, 0, (I
  "rtbl")⟩, [], .noAction, .noAction⟩), (.addForeignKey ⟨(I "con2"), [(I "c2")], ⟨0, 0, (I
  "tbl2")⟩, [], .noAction, .noAction⟩)])) := by decide +kernel

/-- parser/parser_test.go:1945 -/
example : parsed "alter table tbl drop constraint if exists con" = .stmt (some (.alterTable ⟨0, 0,
  (I "tbl")⟩ [(.dropConstraint (I "con") true 0 .none)])) := by decide +kernel

/-- parser/parser_test.go:1957 -/
example : parsed
  "alter table tbl add constraint con foreign key (c1) references rtbl,\nalter column c1 drop default, alter c2 drop not null, drop constraint con"
  = .stmt (some (.alterTable ⟨0, 0, (I "tbl")⟩ [(.addForeignKey ⟨(I "con"), [(I "c1")], ⟨0, 0, (I
  "rtbl")⟩, [], .noAction, .noAction⟩), (.dropConstraint 0 false (I "c1") .default),
  (.dropConstraint 0 false (I "c2") .notNull), (.dropConstraint (I "con") false 0 .none)])) :=
  by decide +kernel

/-- parser/parser_test.go:933 -/
example : ∀ c ∈ [("1 * 2 - 3 = 4", "(((1 * 2) - 3) == 4)"), ("1 / 2 * 3 - 5",
  "(((1 / 2) * 3) - 5)"), ("1 - 2 * (3 + 4) + 5", "((1 - (2 * (3 + 4))) + 5)"),
  ("1 - (2 + 3) * 4 + 5", "((1 - ((2 + 3) * 4)) + 5)")], printedExpr c.1 = some (ascii c.2) :=
  by decide +kernel

/-- parser/parser_test.go:937 -/
example : ∀ c ∈ [("1 + 2 = 3 * 4 - 5 * 6", "((1 + 2) == ((3 * 4) - (5 * 6)))"),
  ("NOT 12 AND 1 OR 3", "(((NOT 12) AND 1) OR 3)"), ("- 1 * 2 + 3", "(((- 1) * 2) + 3)"),
  ("- 1 * 2", "((- 1) * 2)")], printedExpr c.1 = some (ascii c.2) := by decide +kernel

/-- parser/parser_test.go:941 -/
example : ∀ c ∈ [("12 % 34 + 56", "((12 % 34) + 56)"), ("12 == 34 OR 56 != 78",
  "((12 == 34) OR (56 != 78))"), ("12 + 34 << 56 + 78", "((12 + 34) << (56 + 78))"), ("abc",
  "abc")], printedExpr c.1 = some (ascii c.2) := by decide +kernel

/-- parser/parser_test.go:945 -/
example : ∀ c ∈ [("abc.def", "abc.def"), ("abc. def . ghi .jkl", "abc.def.ghi.jkl"),
  ("abc(1 + 2)", "abc((1 + 2))"), ("abc()", "abc()")], printedExpr c.1 = some (ascii c.2) :=
  by decide +kernel

/-- parser/parser_test.go:949 -/
example : ∀ c ∈ [("abc(1 + 2, def() * 3)", "abc((1 + 2), (def() * 3))"),
  ("c1 * 10 = c2 AND c2 * 10 = c3", "(((c1 * 10) == c2) AND ((c2 * 10) == c3))"), ("1 + 2 - 3",
  "((1 + 2) - 3)"), ("12 / 4 * 3", "((12 / 4) * 3)")], printedExpr c.1 = some (ascii c.2) :=
  by decide +kernel

/-- parser/parser_test.go:953 -/
example : ∀ c ∈ [("1 - 2 + 3", "((1 - 2) + 3)"), ("12 * 4 / 3", "((12 * 4) / 3)"), ("- 2 * 3",
  "((- 2) * 3)"), ("- (2 * 3)", "(- (2 * 3))")], printedExpr c.1 = some (ascii c.2) :=
  by decide +kernel

/-- parser/parser_test.go:957 -/
example : ∀ c ∈ [("1 + 2 * 3", "(1 + (2 * 3))"), ("1 * 2 + 3 / - 4", "((1 * 2) + (3 / (- 4)))"),
  ("count(*)", "count_all()"), ("count(123)", "count(123)")], printedExpr c.1 = some (ascii c.2)
  := by decide +kernel

/-- parser/parser_test.go:961 -/
example : ∀ c ∈ [("count(1,23,456)", "count(1, 23, 456)"), ("x AND y AND z", "((x AND y) AND z)"),
  ("x * y / z", "((x * y) / z)"), ("123 + (select * from t)", "(123 + (SELECT * FROM t))")],
  printedExpr c.1 = some (ascii c.2) := by decide +kernel

/-- parser/parser_test.go:965 -/
example : ∀ c ∈ [("(values (1)) + (show schema)", "((VALUES (1)) + (SHOW SCHEMA))"),
  ("exists(show schema) and c1", "(EXISTS(SHOW SCHEMA) AND c1)"), ("c1 in (select * from tbl1)",
  "c1 == ANY(SELECT * FROM tbl1)"), ("(c1 + c2) not in (values (1), (2), (3))",
  "(c1 + c2) != ALL(VALUES (1), (2), (3))")], printedExpr c.1 = some (ascii c.2) :=
  by decide +kernel

/-- parser/parser_test.go:969 -/
example : ∀ c ∈ [("c1 > some(select * from t1)", "c1 > ANY(SELECT * FROM t1)"),
  ("c1 <= all(select c1 from t1)", "c1 <= ALL(SELECT c1 FROM t1)")], printedExpr c.1 = some (ascii
  c.2) := by decide +kernel

/-- parser/parser_test.go:983 -/
example : ∀ s ∈ ["1 *", "(1 * 2", "(*)", "abc.123"], printedExpr s = none := by decide +kernel

/-- parser/parser_test.go:983 -/
example : ∀ s ∈ ["((1 + 2) * 3", "abc(123,", "abc(*)", "exists()"], printedExpr s = none :=
  by decide +kernel

/-- parser/parser_test.go:983 -/
example : ∀ s ∈ ["exists(1 + 2)", "exists(select * show schema)", "c1 in (1, 2, 3)",
  "c1 in (select * from tbl1, select * from tbl2)"], printedExpr s = none := by decide +kernel

/-- parser/parser_test.go:983 -/
example : ∀ s ∈ ["c1 not in (1, 2, 3)", "(c1 not (1, 2, 3))", "(c1 all = (select * from t1))",
  "(c1 + any(select c2 from t1)"], printedExpr s = none := by decide +kernel

end Maho.Replay
