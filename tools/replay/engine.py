"""engine/engine_test.go as Lean examples."""
import re
from golit import Lit, Reader, lex, function, table
from lean import *

m = Module('Engine', ['Replay.EngineRun'],
           'engine/engine_test.go on the model (written by tools/replay/engine.py).')
src = m.open('engine/engine_test.go')

COLTYPES = {'types.IdColType': '⟨.string, 128, false, true⟩',
            'types.Int32ColType': '⟨.int64, 4, false, true⟩',
            'types.NullInt64ColType': '⟨.int64, 8, false, false⟩',
            'types.BoolColType': '⟨.bool, 0, false, true⟩',
            'types.StringColType': '⟨.string, 4096, false, true⟩',
            'types.NullStringColType': '⟨.string, 4096, false, false⟩'}


def eid(v):
    return ident(v).replace('(I ', '(E ')


def name(v):
    return '⟨%s⟩' % ', '.join(eid(v.get(n)) for n in ('Database', 'Schema', 'Table') if v.get(n))


def ids(v):
    return '(.ids (identifiers %s))' % string(v[2][0][1])


def case(v):
    g = v.get
    t = v.type
    e = '.fail' if g('fail') == ('id', 'true') else '.ok'
    if t == 'createDatabase':
        return '(.createDatabase %s 0, %s)' % (eid(g('dn')), e)
    if t == 'dropDatabase':
        return '(.dropDatabase %s %s, %s)' % (eid(g('dn')), boolean(g('ifExists')), e)
    if t == 'listDatabases':
        return '(.listDatabases, %s)' % ids(g('databases'))
    if t == 'createSchema':
        return '(.createSchema %s, %s)' % (name(g('sn')), e)
    if t == 'dropSchema':
        return '(.dropSchema %s %s, %s)' % (name(g('sn')), boolean(g('ifExists')), e)
    if t == 'listSchemas':
        return '(.listSchemas %s, %s)' % (eid(g('dn')), e if nil(g('schemas')) else ids(g('schemas')))
    if t == 'createTable':
        c = g('colNames')[1].replace('colNames', 'columns')
        return '(.createTable %s %s.1 %s.2.1 %s.2.2, %s)' % (name(g('tn')), c, c, c, e)
    if t == 'openTable':
        if e == '.fail':
            return '(.openTable %s, .fail)' % name(g('tn'))
        c = g('colNames')[1].replace('colNames', 'columns')
        return '(.openTable %s, .table ⟨%s, ⟨1, %s.1, %s.2.1, %s.2.2⟩, %d⟩)' % (
            name(g('tn')), name(g('tn')), c, c, c, num(g('tid')))
    if t in ('commit', 'rollback'):
        return '(.%s, .ok)' % t
    raise ValueError(t)


TYPES_ = ('createDatabase', 'dropDatabase', 'listDatabases', 'createSchema', 'dropSchema',
          'listSchemas', 'createTable', 'openTable', 'commit', 'rollback')

t = table(src, 'TestTableType', 'tableTypes')
for v in t.vals():
    n = v.get('Version')
    cols = v.get('ColumnTypes')
    d = '⟨%s, %s, %s, %s⟩' % (
        0 if n is None else num(n), idents(v.get('ColumnNames')).replace('(I ', '(E '),
        items(cols, lambda x: COLTYPES[x[1]]),
        items(v.get('Key'), lambda x: 'makeColumnKey %d %s' % (num(x[2][0]), boolean(x[2][1]))))
    m.ex(v.line, 'sampleEngine.decodeDef (sampleEngine.encodeDef %s) = some %s' % (d, d))
for n, s in re.findall(r'colNames(\d), \w+, \w+ := testutil.MustParseColumns\(\s*"([^"]*)"\)', src):
    m.out.append('def columns%s : List Identifier × List ColumnType × List ColumnKey :=\n  columns "%s"\n' % (n, s))
t = table(src, 'TestDatabase', 'cases', {'types': TYPES_})
m.out.append('/-- %s:%d `TestDatabase` -/\nexample : engineCases newEngine [\n    %s] = true := by decide +kernel\n' % (
    m.path, t.line, ',\n    '.join(case(v) for v in t.vals())))
for f in ['TestSchema', 'TestTable']:
    text, first = function(src, f)
    toks = [(a, b, l + first) for a, b, l in lex(text)] + [('eof', '', 0)] * 3
    out = []
    for i in range(len(toks)):
        if toks[i][1] == 'testEngine':
            while toks[i][1] != '[':
                i += 1
            lit = Reader(toks, i, {'types': TYPES_}).expr()
            out.append('(.begin, .ok)')
            out += [wrap(case(c), '      ', 94) for c in lit.vals()]
    m.out.append('/-- %s:%d `%s` -/\nexample : engineCases newEngine [\n    %s] = true := by decide +kernel\n' % (
        m.path, first + 1, f, ',\n    '.join(out)))
m.write()
