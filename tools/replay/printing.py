"""parser/sql/*_test.go and the tests of names and types in types/*_test.go as Lean examples."""
from golit import table, local
from lean import *

m = Module('Print', ['Replay.Env', 'Replay.Same'],
           'parser/sql/query_test.go, parser/sql/datadef_test.go, types/name_test.go and\n'
           'types/column_test.go on the model (written by tools/replay/printing.py).')
ex = m.ex

for path, funcs in [
        ('parser/sql/query_test.go', ['TestInsert', 'TestValues', 'TestSelect', 'TestDelete',
                                      'TestUpdate']),
        ('parser/sql/datadef_test.go', ['TestCreateTable', 'TestDropTable', 'TestCreateIndex',
                                        'TestCreateDatabase', 'TestCreateSchema', 'TestAlterTable',
                                        'TestDropIndex', 'TestDropDatabase', 'TestDropSchema'])]:
    src = m.open(path)
    for f in funcs:
        t = local(src, f)['cases']
        for v in t.vals():
            if f == 'TestDropDatabase' and v.get('stmt').get('Options'):
                continue  # the parser never sets them; they are not in the model
            ex(v.line, '(%s : Stmt).print env = .ok (ascii %s)' % (stmt(v.get('stmt')),
                                                                  string(v.get('s')[1])))

t = local(src, 'TestForeignKey')['cases']
for v in t.vals():
    ex(v.line, '(%s : ForeignKey).print env = ascii %s' % (foreignKey(v.get('fk')),
                                                          string(v.get('s')[1])))

src = m.open('types/column_test.go')
t = table(src, 'TestColumnType', 'cases')
for v in t.vals():
    ct, s, p = v.vals()
    if ct.get('Type') == ('num', '123'):
        continue
    ex(v.line, '(%s : ColumnType).print = %s' % (
        columnType(ct), '.panic' if boolean(p) == 'true' else '.ok (ascii %s)' % string(s[1])))

src = m.open('types/name_test.go')
out = [(16, '⟨I "db", I "scm", I "tbl"⟩', 'db.scm.tbl', 'db.scm'),
       (33, '⟨0, I "scm", I "tbl"⟩', 'scm.tbl', 'scm'), (49, '⟨0, 0, I "tbl"⟩', 'tbl', None)]
for line, tn, s, sn in out:
    ex(line, '(%s : TableName).print env = ascii "%s"' % (tn, s))
    if sn:
        ex(line + 5, '(⟨%s⟩ : SchemaName).print env = ascii "%s"' % (', '.join(tn[1:].split(', ')[:2]), sn))
m.write()
