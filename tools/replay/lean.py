"""Lean terms for the values in the tables of Go tests."""
import struct
from golit import Lit

KW = None


def nil(v):
    return v is None or v == ('id', 'nil')


def num(v):
    """An integer."""
    if v[0] == 'neg':
        return -num(v[1])
    if v[0] == 'rune':
        return v[1]
    if v[0] == 'bin':
        a, b = num(v[2]), num(v[3])
        return {'+': a + b, '-': a - b, '*': a * b, '<<': a << b, '|': a | b}[v[1]]
    if v[0] == 'id':
        return {'types.MaxColumnSize': 2 ** 32 - 2, 'math.MaxInt64': 2 ** 63 - 1,
                'math.MinInt64': -2 ** 63}[v[1]]
    if v[0] == 'call' and v[1] in ('types.Int64Value', 'types.ColumnNum', 'int64', 'uint32'):
        return num(v[2][0])
    return int(v[1], 0)


def flt(v):
    if v[0] == 'neg':
        return -flt(v[1])
    return float(v[1])


def bits(f):
    return '0x%016x#64' % struct.unpack('>Q', struct.pack('>d', f))[0]


def string(b):
    """A Lean string literal for ASCII text."""
    out = ''
    for c in b:
        if c in (34, 92):
            out += '\\' + chr(c)
        elif c == 10:
            out += '\\n'
        elif c == 9:
            out += '\\t'
        elif 32 <= c < 127:
            out += chr(c)
        else:
            out += '\\x%02x' % c
    return '"' + out + '"'


def bytes_(b):
    if all(c < 128 for c in b):
        return '(ascii %s)' % string(b)
    return '[' + ', '.join('%d' % c for c in b) + ']'


def lst(vs):
    return '[' + ', '.join(vs) + ']'


def opt(v, f):
    return 'none' if nil(v) else '(some %s)' % f(v)


def boolean(v):
    return 'true' if v == ('id', 'true') else 'false'


def ident(v):
    if nil(v):
        return '0'
    if v[0] == 'call' and v[1] in ('types.ID', 'ID'):
        return '(I %s)' % string(v[2][0][1]) if v[2][1] == ('id', 'false') else '(Q %s)' % string(v[2][0][1])
    if v[0] == 'id' and v[1].startswith('types.'):
        n = v[1][6:]
        return {'PUBLIC': '(I "public")', 'PRIVATE': '(I "private")', 'SYSTEM': '(I "system")',
                'MAHO': '(I "maho")'}.get(n, 'Kw.' + n)
    if v[0] == 'num':
        return v[1]
    raise ValueError(v)


def idents(v):
    return '[]' if nil(v) else lst([ident(x) for x in v.vals()])


def tableName(v):
    if nil(v):
        return '⟨0, 0, 0⟩'
    if v.elems and v.elems[0][0] is None:
        return '⟨%s⟩' % ', '.join(ident(x) for x in v.vals())
    return '⟨%s, %s, %s⟩' % (ident(v.get('Database')), ident(v.get('Schema')), ident(v.get('Table')))


def schemaName(v):
    if v.elems and v.elems[0][0] is None:
        return '⟨%s⟩' % ', '.join(ident(x) for x in v.vals())
    return '⟨%s, %s⟩' % (ident(v.get('Database')), ident(v.get('Schema')))


def int64(n):
    return str(n) if n >= 0 else '(-%d#64)' % -n


def value(v):
    if nil(v):
        return 'none'
    assert v[0] == 'call', v
    k = v[1].split('.')[-1]
    a = v[2][0]
    if k == 'BoolValue':
        return '(some (.bool %s))' % boolean(a)
    if k == 'Int64Value':
        return '(some (.int %s))' % int64(num(a))
    if k == 'Float64Value':
        return '(some (.float %s))' % bits(flt(a))
    if k == 'StringValue':
        return '(some (.str %s))' % bytes_(a[1])
    if k == 'BytesValue':
        if isinstance(a, tuple) and a[0] == 'str':
            return '(some (.bytes %s))' % bytes_(a[1])
        return '(some (.bytes %s))' % bytesOf(a)
    raise ValueError(v)


def bytesOf(a):
    """[]byte{...} or []byte("...")."""
    if isinstance(a, Lit):
        return lst([str(num(x)) for x in a.vals()])
    if a[0] == 'call' and a[1] == '[]byte':
        return bytes_(a[2][0][1])
    raise ValueError(a)


OPS = {'AddOp': 'add', 'AndOp': 'and', 'BinaryAndOp': 'binaryAnd', 'BinaryOrOp': 'binaryOr',
       'ConcatOp': 'concat', 'DivideOp': 'divide', 'EqualOp': 'equal',
       'GreaterEqualOp': 'greaterEqual', 'GreaterThanOp': 'greaterThan', 'LessEqualOp': 'lessEqual',
       'LessThanOp': 'lessThan', 'LShiftOp': 'lShift', 'ModuloOp': 'modulo',
       'MultiplyOp': 'multiply', 'NegateOp': 'negate', 'NoOp': 'noOp', 'NotEqualOp': 'notEqual',
       'NotOp': 'not', 'OrOp': 'or', 'RShiftOp': 'rShift', 'SubtractOp': 'subtract'}


def last(v):
    return v[1].split('.')[-1]


def op(v):
    return '.' + OPS[last(v)]


def expr(v):
    if isinstance(v, tuple):
        if v[0] == 'call':
            if v[1] == 'stringLiteral':
                return '(.lit (some (.str %s)))' % bytes_(v[2][0][1])
            if v[1] == 'int64Literal':
                return '(.lit (some (.int %d)))' % num(v[2][0])
        if v[0] == 'id':
            return {'trueLiteral': '(.lit (some (.bool true)))',
                    'falseLiteral': '(.lit (some (.bool false)))', 'nilLiteral': '(.lit none)'}[v[1]]
        raise ValueError(v)
    t = v.type.split('.')[-1]
    if t == 'Literal':
        return '(.lit %s)' % value(v.vals()[0])
    if t == 'Ref':
        ids = [ident(x) for x in v.vals()]
        return '(.ref %s %s)' % (ids[0], lst(ids[1:]))
    if t == 'BinaryExpr':
        return '(.binary %s %s %s)' % (op(v.get('Op')), expr(v.get('Left')), expr(v.get('Right')))
    if t == 'UnaryExpr':
        return '(.unary %s %s)' % (op(v.get('Op')), expr(v.get('Expr')))
    if t == 'Subquery':
        o = {'Scalar': 'scalar', 'Exists': 'exists', 'Any': 'any', 'All': 'all'}[last(v.get('Op'))]
        eo = v.get('ExprOp')
        return '(.subquery .%s %s %s %s)' % (o, '.add' if eo is None else op(eo),
                                              opt(v.get('Expr'), expr), query(v.get('Stmt')))
    raise ValueError(t)


JOINS = {'Join': 'join', 'LeftJoin': 'leftJoin', 'RightJoin': 'rightJoin', 'FullJoin': 'fullJoin',
         'CrossJoin': 'crossJoin'}


def fromItem(v):
    t = v.type.split('.')[-1]
    if t == 'FromTableAlias':
        return '(.table %s %s)' % (tableName(v.get('TableName')), ident(v.get('Alias')))
    if t == 'FromIndexAlias':
        return '(.index %s %s %s)' % (tableName(v.get('TableName')), ident(v.get('Index')),
                                      ident(v.get('Alias')))
    if t == 'FromStmt':
        return '(.stmt %s %s %s)' % (query(v.get('Stmt')), ident(v.get('Alias')),
                                     idents(v.get('ColumnAliases')))
    if t == 'FromJoin':
        return '(.join %s %s .%s %s %s)' % (
            fromItem(v.get('Left')), fromItem(v.get('Right')), JOINS[last(v.get('Type'))],
            opt(v.get('On'), expr), idents(v.get('Using')))
    raise ValueError(t)


def selectResult(v):
    t = v.type.split('.')[-1]
    if t == 'TableResult':
        return '(.table %s)' % ident(v.get('Table'))
    return '(.expr %s %s)' % (expr(v.get('Expr')), ident(v.get('Alias')))


def orderBy(v):
    e = v.get('Expr')
    return '(%s, %s)' % (ident(e.vals()[0]), boolean(v.get('Reverse')))


def exprs(v):
    return '[]' if nil(v) else lst([expr(x) for x in v.vals()])


def query(v):
    t = v.type.split('.')[-1]
    if t == 'Select':
        rs, ob = v.get('Results'), v.get('OrderBy')
        return '(.select %s %s %s %s %s %s)' % (
            '[]' if nil(rs) else lst([selectResult(x) for x in rs.vals()]),
            opt(v.get('From'), fromItem), opt(v.get('Where'), expr), exprs(v.get('GroupBy')),
            opt(v.get('Having'), expr), '[]' if nil(ob) else lst([orderBy(x) for x in ob.vals()]))
    if t == 'Values':
        return '(.values %s)' % lst([exprs(x) for x in v.get('Expressions').vals()])
    if t == 'Show':
        return '(.show %s)' % ident(v.get('Variable'))
    raise ValueError(t)


def key(v):
    if nil(v):
        return '.zero'
    r = v.get('Reverse')
    return '⟨%s, %s, %s⟩' % (boolean(v.get('Unique')), idents(v.get('Columns')),
                             '[]' if nil(r) else lst([boolean(x) for x in r.vals()]))


CONS = {'PrimaryConstraint': 'primary', 'UniqueConstraint': 'unique', 'CheckConstraint': 'check',
        'NotNullConstraint': 'notNull', 'DefaultConstraint': 'default'}


def consType(v):
    return '.none' if v is None else '.' + CONS[last(v)]


def constraint(v):
    n = v.get('ColNum')
    n = 0 if n is None else num(n)
    return '⟨%s, %s, %s, %s, %s⟩' % (consType(v.get('Type')), ident(v.get('Name')), n,
                                     key(v.get('Key')), opt(v.get('Check'), expr))


ACTIONS = {'NoAction': 'noAction', 'Restrict': 'restrict', 'Cascade': 'cascade',
           'SetNull': 'setNull', 'SetDefault': 'setDefault'}


def action(v):
    return '.noAction' if v is None else '.' + ACTIONS[last(v)]


def foreignKey(v):
    return '⟨%s, %s, %s, %s, %s, %s⟩' % (
        ident(v.get('Name')), idents(v.get('FKCols')), tableName(v.get('RefTable')),
        idents(v.get('RefCols')), action(v.get('OnDelete')), action(v.get('OnUpdate')))


TYPES = {'BoolType': 'bool', 'StringType': 'string', 'BytesType': 'bytes',
         'Float64Type': 'float64', 'Int64Type': 'int64', 'UnknownType': 'unknown'}


def columnType(v):
    n = v.get('Size')
    t = v.get('Type')
    return '⟨.%s, %s, %s, %s⟩' % ('unknown' if t is None else TYPES[last(t)], 0 if n is None else num(n),
                                   boolean(v.get('Fixed')), boolean(v.get('NotNull')))


def alterAction(v):
    t = v.type.split('.')[-1]
    if t == 'AddForeignKey':
        return '(.addForeignKey %s)' % foreignKey(v.vals()[0])
    return '(.dropConstraint %s %s %s %s)' % (
        ident(v.get('Name')), boolean(v.get('IfExists')), ident(v.get('Column')),
        consType(v.get('Type')))


def items(v, f):
    return '[]' if nil(v) else lst([f(x) for x in v.vals()])


def defaults(v):
    if isinstance(v, tuple) and v[0] == 'call' and v[1] == 'make':
        return lst(['none'] * num(v[2][1]))
    return items(v, lambda e: opt(e, expr))


def createTable(v):
    return '⟨%s, %s, %s, %s, %s, %s, %s⟩' % (
        tableName(v.get('Table')), idents(v.get('Columns')), items(v.get('ColumnTypes'), columnType),
        defaults(v.get('ColumnDefaults')), boolean(v.get('IfNotExists')),
        items(v.get('Constraints'), constraint), items(v.get('ForeignKeys'), foreignKey))


def columnUpdate(v):
    c, e = (v.get('Column'), v.get('Expr')) if v.elems[0][0] else v.vals()
    return '(%s, %s)' % (ident(c), opt(e, expr))


def stmt(v):
    t = v.type.split('.')[-1]
    g = v.get
    if t in ('Select', 'Values', 'Show'):
        return '(.query %s)' % query(v)
    if t == 'CreateTable':
        return '(.createTable %s)' % createTable(v)
    if t == 'CreateIndex':
        return '(.createIndex %s %s %s %s)' % (ident(g('Index')), tableName(g('Table')),
                                               key(g('Key')), boolean(g('IfNotExists')))
    if t == 'CreateDatabase':
        o = g('Options')
        return '(.createDatabase %s %s)' % (ident(g('Database')), '[]' if nil(o) else lst(
            ['(%s, %s)' % (ident(k), bytes_(x[1])) for k, x in o.elems]))
    if t == 'CreateSchema':
        return '(.createSchema %s)' % schemaName(g('Schema'))
    if t == 'AlterTable':
        return '(.alterTable %s %s)' % (tableName(g('Table')), items(g('Actions'), alterAction))
    if t == 'DropTable':
        return '(.dropTable %s %s %s)' % (boolean(g('IfExists')), boolean(g('Cascade')),
                                          items(g('Tables'), tableName))
    if t == 'DropIndex':
        return '(.dropIndex %s %s %s)' % (tableName(g('Table')), ident(g('Index')),
                                          boolean(g('IfExists')))
    if t == 'DropDatabase':
        return '(.dropDatabase %s %s)' % (boolean(g('IfExists')), ident(g('Database')))
    if t == 'DropSchema':
        return '(.dropSchema %s %s)' % (boolean(g('IfExists')), schemaName(g('Schema')))
    if t == 'Delete':
        return '(.delete %s %s)' % (tableName(g('Table')), opt(g('Where'), expr))
    if t == 'InsertValues':
        return '(.insert %s %s %s)' % (
            tableName(g('Table')), idents(g('Columns')),
            items(g('Rows'), lambda r: items(r, lambda e: opt(e, expr))))
    if t == 'Update':
        return '(.update %s %s %s)' % (
            tableName(g('Table')),
            items(g('ColumnUpdates'), columnUpdate),
            opt(g('Where'), expr))
    raise ValueError(t)


def wrap(text, indent='  ', width=98):
    """Break a line at spaces outside of string literals."""
    words, cur, quoted, i = [], '', False, 0
    while i < len(text):
        c = text[i]
        if quoted and c == '\\':
            cur += text[i:i + 2]
            i += 2
            continue
        if c == '"':
            quoted = not quoted
        if c == ' ' and not quoted:
            words.append(cur)
            cur = ''
        else:
            cur += c
        i += 1
    words.append(cur)
    out, line = [], ''
    for w in words:
        if line and len(line) + 1 + len(w) > width:
            out.append(line)
            line = indent + w
        else:
            line = line + ' ' + w if line else w
    out.append(line)
    return '\n'.join(out)


def chunks(vs, n=4):
    return [vs[i:i + n] for i in range(0, len(vs), n)]


class Module:
    """A Lean file of examples."""

    def __init__(self, name, imports, about):
        self.name = name
        self.out = [''.join('import Verif.%s\n' % i for i in imports) + '/-\n%s\n-/\nnamespace Maho.Replay\n' % about]
        self.path = None

    def open(self, path):
        self.path = path
        return open('/repo/' + path).read()

    def ex(self, line, text):
        self.out.append('/-- %s:%d -/' % (self.path, line))
        self.out.append(wrap('example : %s := by\0decide\0+kernel' % text).replace('\0', ' ') + '\n')

    def write(self):
        self.out.append('end Maho.Replay')
        with open('/verif/lean/Verif/Replay/%s.lean' % self.name, 'w') as f:
            f.write('\n'.join(self.out) + '\n')
