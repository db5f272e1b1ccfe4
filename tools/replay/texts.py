"""testutil/*_test.go as Lean examples."""
from golit import table, local
from lean import *

m = Module('Texts', ['Replay.Env', 'Model.Columns', 'Props.Rows'],
           'testutil/parse_test.go and testutil/rows_test.go on the model (written by\n'
           'tools/replay/texts.py).')
ex = m.ex
src = m.open('testutil/parse_test.go')


def fails(v):
    return v.get('fail') == ('id', 'true')


t = table(src, 'TestParseValue', 'cases')
for c in chunks(t.vals(), 6):
    ex(c[0].line, '∀ c ∈ ([%s] : List (String × Option (Option Value))), (parseValue rowEnv (runes c.1)).map (·.1) = c.2' % ', '.join(
        '(%s, %s)' % (string(v.get('s')[1]),
                      'none' if fails(v) else 'some %s' % value(v.get('val'))) for v in c))
for f, p in [('TestParseRow', '(parseRow rowEnv (runes c.1)).map (fun r => rowString env r.1)'),
             ('TestParseRows', '(parseRows rowEnv (runes c.1)).map (formatRows env (ascii ", "))')]:
    t = table(src, f, 'cases')
    ex(t.line, '∀ c ∈ ([%s] : List (String × Option Bytes)), %s = c.2' % (', '.join(
        '(%s, %s)' % (string(v.get('s')[1]), 'none' if fails(v) else 'some (ascii %s)' % string(
            (v.get('r') or v.get('s'))[1])) for v in t.vals()), p))
t = table(src, 'TestParseIdentifier', 'cases')
ex(t.line, '∀ c ∈ ([%s] : List (String × Option Identifier)), (readIdentifier rowEnv (runes c.1)).map (·.1) = c.2' % ', '.join(
    '(%s, %s)' % (string(v.get('s')[1]), 'none' if fails(v) else 'some %s' % ident(v.get('id')))
    for v in t.vals()))
t = table(src, 'TestParseIdentifiers', 'cases')
ex(t.line, '∀ c ∈ ([%s] : List (String × Option (List Identifier))), readIdentifiers rowEnv (runes c.1) = c.2' % ', '.join(
    '(%s, %s)' % (string(v.get('s')[1]), 'none' if fails(v) else 'some %s' % idents(v.get('ids')))
    for v in t.vals()))


def colKey(v):
    return '(makeColumnKey %d %s)' % (num(v[2][0]), boolean(v[2][1]))


t = table(src, 'TestParseColumns', 'cases')
for v in t.vals():
    ex(v.line, 'readColumns rowEnv (runes %s) = %s' % (string(v.get('s')[1]), 'none' if fails(v) else
       'some (%s, %s, %s)' % (idents(v.get('cols')), items(v.get('colTypes'), columnType),
                              items(v.get('key'), colKey))))

src = m.open('testutil/rows_test.go')
ns = local(src, 'TestFormatRows')
rows = lst([lst([value(x) for x in r.vals()]) for r in ns['rows'].vals()])
for v in ns['cases'].vals():
    ex(v.line, 'formatRows env (ascii %s) %s = ascii %s' % (
        string(v.vals()[0][1]), rows, string(v.vals()[1][1])))
t = table(src, 'TestRowsEqual', 'cases')
for v in t.vals():
    ex(v.line, '(do let rows1 ← parseRows rowEnv (runes %s)\1let rows2 ← parseRows rowEnv (runes %s)\1'
       'pure (rowsEqual insertionSort rows1 rows2 %s).1) = some %s' % (
           string(v.get('s1')[1]), string(v.get('s2')[1]), boolean(v.get('unordered')),
           boolean(v.get('eq'))))
m.out = [x.replace('\1', '; ') for x in m.out]
m.write()
