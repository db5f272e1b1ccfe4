"""parser/parser_test.go as Lean examples."""
from golit import table
from lean import *

m = Module('Parser', ['Replay.Env', 'Replay.Same'],
           'parser/parser_test.go on the model (written by tools/replay/parser.py).')
src = m.open('parser/parser_test.go')
ex = m.ex


def text(s):
    return 'parsed %s' % string(s)


t = table(src, 'TestParse', 'failed')
for c in chunks(t.vals()):
    ex(t.line, '∀ s ∈ %s, parsed s = .error' % lst([string(v[1]) for v in c]))

for f in ['TestCreateTable', 'TestCreateIndex', 'TestInsertValues', 'TestSelect', 'TestValues',
          'TestDelete', 'TestUpdate', 'TestCreateDatabase', 'TestAlterTable']:
    t = table(src, f, 'cases')
    fails = [v for v in t.vals() if v.get('fail') == ('id', 'true')]
    for c in chunks(fails):
        ex(c[0].line, '∀ s ∈ %s, parsed s = .error' % lst([string(v.get('s')[1]) for v in c]))
    for v in t.vals():
        if v in fails:
            continue
        ex(v.line, '%s = .stmt (some %s)' % (text(v.get('s')[1]), stmt(v.get('stmt'))))

t = table(src, 'TestParseExpr', 'cases')
for c in chunks(t.vals()):
    ex(c[0].line, '∀ c ∈ [%s], printedExpr c.1 = some (ascii c.2)' % ', '.join(
        '(%s, %s)' % (string(v.vals()[0][1]), string(v.vals()[1][1])) for v in c))
t = table(src, 'TestParseExpr', 'fails')
for c in chunks(t.vals()):
    ex(t.line, '∀ s ∈ %s, printedExpr s = none' % lst([string(v[1]) for v in c]))

m.write()
