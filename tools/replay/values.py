"""types/{value,identifier}_test.go and encode/*_test.go as Lean examples."""
import golit
from golit import table, local
from lean import *
import lean

m = Module('Values', ['Replay.Env', 'Model.Ident', 'Model.Encode', 'Model.Key'],
           'types/value_test.go, types/identifier_test.go, encode/encode_test.go and encode/key_test.go\n'
           'on the model (written by tools/replay/values.py).')
ex = m.ex
src = m.open('types/value_test.go')


def val(v):
    """A value; `bytes.Repeat` and constants of math are understood."""
    if nil(v):
        return 'none'
    a = v[2][0]
    if v[1] == 'types.BytesValue':
        if nil(a):
            return '(some (.bytes []))'
        if isinstance(a, tuple) and a[1] == 'bytes.Repeat':
            b = [str(num(x)) for x in a[2][0].vals()] * num(a[2][1])
            return '(some (.bytes %s))' % lst(b)
    if v[1] == 'types.Float64Value' and a == ('call', 'math.NaN', []):
        return '(some (.float 0x7FF8000000000001#64))'
    return value(v)


CONST = {'math.MaxInt32': 2**31 - 1, 'math.MinInt32': -2**31, 'math.MaxInt16': 2**15 - 1,
         'math.MinInt16': -2**15, 'math.MaxInt64': 2**63 - 1, 'math.MinInt64': -2**63,
         'math.MaxUint32': 2**32 - 1, 'math.MaxUint64': 2**64 - 1, 'MaxIdentifier': 128}
old = lean.num


def num2(v):
    if v[0] == 'id' and v[1] in CONST:
        return CONST[v[1]]
    return old(v)


lean.num = num = num2

t = table(src, 'TestValue', 'cases')
for c in chunks(t.vals(), 5):
    ex(c[0].line, '∀ c ∈ ([%s] : List (Option Value × String)), formatValue env c.1 = ascii c.2' % ', '.join(
        '(%s, %s)' % (val(v.vals()[0]), string(v.vals()[1][1])) for v in c))
ex(t.line + 28, 'formatValue env none = ascii "NULL"')
t = table(src, 'TestValueType', 'cases')
for v in t.vals():
    if v.get('panicked') is None:
        ex(v.line, 'ValueType.print .%s = ascii %s' % (TYPES[last(v.get('vt'))],
                                                       string(v.get('s')[1])))
t = table(src, 'TestCompare', 'cases')
for c in chunks(t.vals(), 6):
    ex(c[0].line, '∀ c ∈ ([%s] : List (Option Value × Option Value × Ordering)), compareValues c.1 c.2.1 = .ok c.2.2' % ', '.join(
        '(%s, %s, %s)' % (val(v.vals()[0]), val(v.vals()[1]),
                          {-1: '.lt', 0: '.eq', 1: '.gt'}[num(v.vals()[2])]) for v in c))


def row(v):
    return '[]' if nil(v) else lst([val(x) for x in v.vals()])


t = table(src, 'TestRow', 'cases')
for v in t.vals():
    r, s = (v.get('r'), v.get('s')) if v.elems[0][0] else v.vals()
    ex(v.line, 'rowString env %s = ascii %s' % (row(r), string(s[1])))
t = local(src, 'TestConvertValue')['cases']


def res(v):
    if v.get('fail') == ('id', 'true'):
        return 'none'
    return 'some (ascii %s)' % string(v.get('s')[1])


for c in chunks(t.vals(), 6):
    ex(c[0].line, '∀ c ∈ ([%s] : List (ColumnType × Option Value × Option Bytes)), converted c.1 c.2.1 = c.2.2' % ', '.join(
        '(%s, %s, %s)' % (columnType(v.get('ct')), val(v.get('val')), res(v)) for v in c))
cts = local(src, 'TestConvertRow')['colTypes']
t = local(src, 'TestConvertRow')['cases']
for c in chunks(t.vals(), 5):
    ex(c[0].line, '∀ c ∈ ([%s] : List (Row × Option Bytes)), convertedRow %s c.1 = c.2' % (', '.join(
        '(%s, %s)' % (row(v.get('r')), res(v)) for v in c), lst([columnType(x) for x in cts.vals()])))

src = m.open('types/identifier_test.go')


def text(v):
    if v[0] == 'call':
        c = v[2][0][1]
        return '(repeated %d %d)' % (num(v[2][1]), c[0])
    return '(ascii %s)' % string(v[1])


t = table(src, 'TestID', 'cases')
for c in chunks(t.vals(), 9):
    ex(c[0].line, 'internedSame Registry.initial [%s] = %s' % (', '.join(
        '((%s, %s), (%s, %s))' % (text(a), boolean(b), text(d), boolean(e))
        for a, b, d, e, f in (v.vals() for v in c)), lst([boolean(v.vals()[4]) for v in c])))
t = table(src, 'TestString', 'cases')
for c in chunks(t.vals(), 8):
    ex(c[0].line, '∀ c ∈ ([%s] : List ((Bytes × Bool) × Bytes)), internedString c.1 = c.2' % ', '.join(
        '((%s, %s), %s)' % (text(a), boolean(b), text(d)) for a, b, d in (v.vals() for v in c)))
t = table(src, 'TestIsReserved', 'cases')
ex(t.line, '∀ c ∈ ([%s] : List ((Bytes × Bool) × Bool)), isReserved (interned c.1) = c.2' % ', '.join(
    '((%s, %s), %s)' % (text(a), boolean(b), boolean(d)) for a, b, d in (v.vals() for v in t.vals())))
t = table(src, 'TestKnown', 'cases')
KN = {'CREATE': 'Kw.CREATE', 'SYSTEM': '41', 'BIGINT': '1'}
ex(t.line, '∀ c ∈ ([%s] : List ((Bytes × Bool) × Identifier × Bool)), decide (interned c.1 = c.2.1) = c.2.2' % ', '.join(
    '((%s, %s), %s, %s)' % (text(a), boolean(b), KN[d[1]], boolean(e))
    for a, b, d, e in (v.vals() for v in t.vals())))
ex(src[:src.index('func TestKeywords')].count('\n') + 1,
   '∀ p ∈ keywords, p.1 = p.1.map upperByte')

src = m.open('encode/encode_test.go')
t = table(src, 'TestEncodeVarint', 'numbers')


def proto(n):
    b = []
    while n >= 128:
        b.append(n % 128 + 128)
        n //= 128
    return b + [n]


for c in chunks(t.vals(), 7):
    ns = [num(x) for x in c]
    ex(t.line, '∀ c ∈ ([%s] : List (BitVec 64 × Bytes)), encodeVarint [] c.1 = c.2 ∧ decodeVarint c.2 = some ([], c.1)' % ', '.join(
        '(%d, %s)' % (n, lst([str(b) for b in proto(n)])) for n in ns))
t = table(src, 'TestEncodeZigzag64', 'numbers')
for c in chunks(t.vals(), 7):
    ns = [num(x) for x in c]
    ex(t.line, '∀ c ∈ ([%s] : List (BitVec 64 × Bytes)), encodeZigzag64 [] c.1 = c.2 ∧ decodeZigzag64 c.2 = '
       'some ([], c.1)' % ', '.join(
           '(%s, %s)' % (int64(n), lst([str(b) for b in proto(2 * n if n >= 0 else -2 * n - 1)]))
           for n in ns))

src = m.open('encode/key_test.go')
ns = local(src, 'TestMakeKey')
vs, rs = ns['values'], ns['reverseValues']
m.out.append('/-- encode/key_test.go:%d -/\n%s\n' % (
    vs.line, wrap('def keyValues : Row := %s' % lst([val(x) for x in vs.vals()]))))
m.out.append('/-- encode/key_test.go:%d -/\n%s\n' % (
    rs.line, wrap('def reverseKeyValues : Row := %s' % lst([val(x) for x in rs.vals()]))))
line = src[:src.index('testMakeKey(t, []types.ColumnKey{types.MakeColumnKey(0, false)}, values')].count('\n') + 1
ex(line, 'keysAscend [makeColumnKey 0 false] (fun v => [v]) keyValues = true')
ex(line + 5, '∀ v ∈ keyValues, keysAscend [makeColumnKey 1 false, makeColumnKey 0 false] '
   '(fun w => [v, w]) keyValues = true')
ex(line + 15, 'keysAscend [makeColumnKey 0 true] (fun v => [v]) reverseKeyValues = true')
ex(line + 20, '∀ v ∈ reverseKeyValues, keysAscend [makeColumnKey 1 false, makeColumnKey 0 true] '
   '(fun w => [v, w]) keyValues = true')
ex(line + 30, '∀ v ∈ keyValues, keysAscend [makeColumnKey 0 false, makeColumnKey 1 true] '
   '(fun w => [v, w]) reverseKeyValues = true')
m.write()
