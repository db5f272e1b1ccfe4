"""storage/test/table.go as Lean examples."""
from golit import Lit, Reader, lex, function, local
from lean import *

m = Module('Storage', ['Replay.Store'],
           'The tests of storage/test/table.go, which storage/basic/basic_test.go runs on the store of\n'
           'storage/basic, on the model (written by tools/replay/storage.py).')
src = m.open('storage/test/table.go')

COLTYPES = {'types.IdColType': '⟨.string, 128, false, true⟩',
            'types.Int32ColType': '⟨.int64, 4, false, true⟩',
            'types.BoolColType': '⟨.bool, 0, false, true⟩',
            'types.StringColType': '⟨.string, 4096, false, true⟩'}


def tid(v):
    if v[0] == 'bin':
        return 'engineTableId + %d' % num(v[3])
    return str(num(v))


def colName(v):
    return '(I "%s")' % v[1]


def colType(v):
    return columnType(v) if isinstance(v, Lit) else COLTYPES[v[1]]


def colKey(v):
    return 'makeColumnKey %d %s' % (num(v[2][0]), boolean(v[2][1]))


def keys(v):
    return 'none' if nil(v) else '(some %s)' % items(v, colKey)


def cols(v):
    return items(v, lambda x: str(num(x)))


def optCols(v):
    return 'none' if nil(v) else '(some %s)' % cols(v)


def oneRow(v):
    return '(row %s)' % string(v[2][0][1])


def optRow(v):
    return 'none' if nil(v) else '(some %s)' % oneRow(v)


def manyRows(v):
    if v[0] == 'id':
        return rowsName
    return '(rows %s)' % string(v[2][0][1]).replace('\\n(', '\\n\\\n      (')


FUNCS = {'return b == true': '(fun b => b == true)', 'return b == false': '(fun b => b == false)',
         'return s == "abc"': '(fun s => s == ascii "abc")',
         'return bytes . Compare ( b , [ ] byte { 01 } ) == 0': '(fun b => bytesCompare b [1] == .eq)',
         'return f == 3.3': '(fun f => f == %s)' % bits(3.3),
         'return i == 2': '(fun i => i == 2)',
         'return [ ] types . ColumnNum { 3 } , [ ] types . Value { - ( row [ 3 ] . ( types . Int64Value ) ) }':
         'negated'}
PREDS = {'boolPred': 'bool', 'stringPred': 'str', 'bytesPred': 'bytes', 'float64Pred': 'float',
         'int64Pred': 'int'}


def func(v):
    return FUNCS[' '.join(v[3])]


def pred(v):
    if nil(v):
        return 'none'
    fs = ', '.join('%s := some %s' % (PREDS[k[1]], func(f)) for k, f in v.elems if k[1] in PREDS)
    return '(some { column := %d, %s })' % (num(v.get('col')), fs)


def case(v):
    g = v.get
    b = lambda n: boolean(g(n))
    t = v.type
    if t in ('OpenTable', 'CreateTable'):
        return '.%s (%s) %s %s %s %s' % (
            t[0].lower() + t[1:], tid(g('tid')), items(g('colNames'), colName),
            items(g('colTypes'), colType), keys(g('primary')), b('panicked'))
    if t == 'TableType':
        return '.tableType (%s) %d %s %s %s' % (tid(g('tid')), num(g('ver')), items(g('colNames'), colName),
                                            items(g('colTypes'), colType), keys(g('key')))
    if t == 'DropTable':
        return '.dropTable (%s) %s' % (tid(g('tid')), b('panicked'))
    if t in ('Commit', 'Rollback'):
        return '.%s %s' % (t.lower(), b('panicked'))
    if t == 'Rows':
        return '.rows %s %s %s %s %s' % (optCols(g('cols')), optRow(g('minRow')), optRow(g('maxRow')),
                                         pred(g('pred')), b('fail'))
    if t == 'Update':
        return '.update %s %s %s %s' % (cols(g('cols')), items(g('vals'), value), b('fail'), b('panicked'))
    if t in ('Delete', 'Current', 'Close'):
        return '.%s %s %s' % (t.lower(), b('fail'), b('panicked'))
    if t == 'Insert':
        return '.insert %s %s' % (manyRows(g('rows')), b('fail'))
    if t == 'Next':
        return '.next %s %s %s %s' % ('[]' if nil(g('row')) else oneRow(g('row')), b('fail'), b('eof'),
                                      b('panicked'))
    if t == 'Select':
        return '.select %s %s %s %s %s %s' % (
            optCols(g('cols')), optRow(g('minRow')), optRow(g('maxRow')), pred(g('pred')),
            manyRows(g('rows')), b('unordered'))
    if t == 'DeleteFrom':
        return '.deleteFrom %s %s %s' % (optRow(g('minRow')), optRow(g('maxRow')), pred(g('pred')))
    if t == 'UpdateSet':
        return '.updateSet %s %s %s %s' % (optRow(g('minRow')), optRow(g('maxRow')), pred(g('pred')),
                                           func(g('update')))
    raise ValueError(t)


m.out.append('''/-- storage/test/table.go:1236-1246 -/
def table0 : List Row := (List.range 19).map fun n =>
  [some (.int (BitVec.ofNat 64 (n + 1))), some (.bool ((n + 1) % 2 == 0)), some (.str []),
    some (.int (BitVec.ofNat 64 (n + 1)))]

/-- storage/test/table.go:1286-1288 -/
def negated : Row → List ColumnNum × List (Option Value)
  | [_, _, _, some (.int n)] => ([3], [some (.int (-n))])
  | _ => ([], [])

/-- storage/test/table.go:1293-1297 -/
def table1 : List Row := table0.map fun
  | [a, some (.bool true), b, some (.int n)] => [a, some (.bool true), b, some (.int (-n))]
  | row => row

/-- storage/test/table.go:1328-1334 -/
def table2 : List Row := table1.filter fun row => row[1]? == some (some (.bool true))
''')
for f in ['TestCreateTable', 'TestDropTable', 'TestInsert', 'TestRows', 'TestDelete', 'TestUpdate',
          'TestTable']:
    text, first = function(src, f)
    toks = [(a, b, l + first) for a, b, l in lex(text)] + [('eof', '', 0)] * 3
    names = local(src, f)
    names['types'] = ('predicateFunc',)
    txs = []
    for i in range(len(toks)):
        if toks[i][1] == 'testStorage':
            while toks[i][1] != '[':
                i += 1
            rowsName = 'table0' if len(txs) < 3 else 'table1' if len(txs) < 6 else 'table2'
            lit = Reader(toks, i, names).expr()
            txs.append('[' + ',\n    '.join(wrap(case(c), '      ', 94) for c in lit.vals()) + ']')
    m.out.append('/-- %s:%d `%s` -/\nexample : passes World.initial [\n  %s] = true := by decide +kernel\n' % (
        m.path, first + 1, f, ',\n  '.join(txs)))
m.write()
