"""A reader of the composite literals in the tables of Go tests."""
import re

TOK = re.compile(r'''
  (?P<ws>\s+|//[^\n]*|/\*.*?\*/)
 |(?P<raw>`[^`]*`)
 |(?P<str>"(?:\\.|[^"\\])*")
 |(?P<rune>'(?:\\.[^']*|[^'\\])')
 |(?P<num>0x[0-9a-fA-F]+|\d+\.\d*(?:[eE][-+]?\d+)?|\.\d+|\d+(?:[eE][-+]?\d+)?)
 |(?P<id>[A-Za-z_]\w*)
 |(?P<op>:=|\.\.\.|==|!=|<=|>=|&&|\|\||<<|>>|[-+*/%&|^<>=!(){}\[\],;.:])
''', re.X | re.S)

ESC = {'n': 10, 't': 9, 'r': 13, '\\': 92, "'": 39, '"': 34, 'a': 7, 'b': 8, 'f': 12, 'v': 11}


def unquote(s):
    """The bytes of an interpreted string or rune literal."""
    out = bytearray()
    i = 0
    while i < len(s):
        c = s[i]
        if c != '\\':
            out += c.encode()
            i += 1
        elif s[i + 1] in ESC:
            out.append(ESC[s[i + 1]])
            i += 2
        elif s[i + 1] == 'x':
            out.append(int(s[i + 2:i + 4], 16))
            i += 4
        elif s[i + 1] in 'uU':
            n = 4 if s[i + 1] == 'u' else 8
            out += chr(int(s[i + 2:i + 2 + n], 16)).encode()
            i += 2 + n
        else:
            out.append(int(s[i + 1:i + 4], 8))
            i += 4
    return bytes(out)


def lex(src, pos=0):
    toks = []
    while pos < len(src):
        m = TOK.match(src, pos)
        if not m:
            raise SyntaxError('line %d: %r' % (src.count('\n', 0, pos) + 1, src[pos:pos + 40]))
        if m.lastgroup != 'ws':
            toks.append((m.lastgroup, m.group(), src.count('\n', 0, pos) + 1))
        pos = m.end()
    return toks


class Lit:
    """A composite literal: `type` (None if elided), `elems` [(key or None, value)], `line`."""
    def __init__(self, typ, elems, line):
        self.type, self.elems, self.line = typ, elems, line

    def get(self, name, default=None):
        for k, v in self.elems:
            if k == ('id', name):
                return v
        return default

    def vals(self):
        return [v for _, v in self.elems]


class Reader:
    def __init__(self, toks, i=0, names=None):
        self.toks, self.i = toks, i
        self.names = names or {}

    def peek(self, k=0):
        return self.toks[self.i + k]

    def take(self, v=None):
        t = self.toks[self.i]
        if v is not None and t[1] != v:
            raise SyntaxError('line %d: %r, not %r' % (t[2], t[1], v))
        self.i += 1
        return t

    def type(self):
        t = self.peek()
        if t[1] == '[':
            self.take()
            n = ''
            while self.peek()[1] != ']':
                n += self.take()[1]
            self.take(']')
            return '[' + n + ']' + self.type()
        if t[1] == '*':
            self.take()
            return '*' + self.type()
        if t[1] == 'map':
            self.take()
            self.take('[')
            k = self.type()
            self.take(']')
            return 'map[%s]%s' % (k, self.type())
        if t[1] == 'struct':
            self.take()
            self.take('{')
            depth = 1
            text = []
            while depth:
                u = self.take()
                depth += {'{': 1, '}': -1}.get(u[1], 0)
                text.append(u[1])
            return 'struct{' + ' '.join(text)
        if t[1] == 'interface':
            self.take()
            self.take('{')
            self.take('}')
            return 'interface{}'
        n = self.take()[1]
        while self.peek()[1] == '.':
            self.take()
            n += '.' + self.take()[1]
        return n

    def body(self, typ):
        line = self.take('{')[2]
        elems = []
        while self.peek()[1] != '}':
            k = None
            if self.peek()[0] == 'id' and self.peek(1)[1] == ':':
                k = ('id', self.take()[1])
                self.take()
                v = self.expr()
            else:
                v = self.expr()
                if self.peek()[1] == ':':
                    self.take()
                    k, v = v, self.expr()
            elems.append((k, v))
            if self.peek()[1] == ',':
                self.take()
        self.take('}')
        return Lit(typ, elems, line)

    def skip(self, open_, close):
        """Skip a bracketed text and return its tokens."""
        self.take(open_)
        depth, text = 1, []
        while depth:
            u = self.take()
            depth += {open_: 1, close: -1}.get(u[1], 0)
            text.append(u[1])
        return text[:-1]

    def expr(self, prec=0):
        v = self.unary()
        while self.peek()[1] in ('+', '-', '*', '<<', '|'):
            op = self.take()[1]
            w = self.unary()
            if op == '+' and v[0] == 'str' and w[0] == 'str':
                v = ('str', v[1] + w[1])
            else:
                v = ('bin', op, v, w)
        return v

    def unary(self):
        t = self.peek()
        if t[1] == '&':
            self.take()
            return self.unary()
        if t[1] == '-':
            self.take()
            return ('neg', self.unary())
        if t[1] == '(':
            self.take()
            v = self.expr()
            self.take(')')
            return v
        if t[0] == 'raw':
            self.take()
            return ('str', t[1][1:-1].encode())
        if t[0] == 'str':
            self.take()
            return ('str', unquote(t[1][1:-1]))
        if t[0] == 'rune':
            self.take()
            return ('rune', ord(unquote(t[1][1:-1]).decode('latin1' if '\\' in t[1] else 'utf8')))
        if t[0] == 'num':
            self.take()
            return ('num', t[1])
        if t[1] == '{':
            return self.body(None)
        if t[1] == 'func':
            line = t[2]
            text = []
            while self.peek()[1] != '{':
                text.append(self.take()[1])
            return ('func', line, text, self.skip('{', '}'))
        if t[1] in ('[', 'map', 'struct'):
            typ = self.type()
            if self.peek()[1] == '(':
                self.take()
                v = self.expr()
                self.take(')')
                return ('call', typ, [v])
            return self.body(typ)
        if t[0] == 'id':
            n = self.take()[1]
            while self.peek()[1] == '.':
                self.take()
                n += '.' + self.take()[1]
            if self.peek()[1] == '(':
                self.take()
                args = []
                while self.peek()[1] != ')':
                    if self.peek()[1] in ('[',) and n == 'make':
                        args.append(('type', self.type()))
                    else:
                        args.append(self.expr())
                    if self.peek()[1] == ',':
                        self.take()
                self.take(')')
                return ('call', n, args)
            if self.peek()[1] == '{' and (n[0].isupper() or '.' in n or n in ('byte',) or n in self.names.get('types', ())):
                return self.body(n)
            if n in self.names:
                return self.names[n]
            return ('id', n)
        raise SyntaxError('line %d: %r' % (t[2], t[1]))


def function(src, name):
    """The text of a function and the number of its first line."""
    m = re.search(r'^func (?:\([^)]*\) )?%s\(' % re.escape(name), src, re.M)
    end = src.index('\n}\n', m.start()) + 3
    return src[m.start():end], src.count('\n', 0, m.start())


def table(src, func, var, names=None):
    """The literal assigned to `var` in `func`."""
    text, first = function(src, func)
    toks = lex(text)
    toks = [(a, b, l + first) for a, b, l in toks] + [('eof', '', 0)] * 3
    for i in range(len(toks)):
        if toks[i][1] == var and toks[i + 1][1] == ':=':
            return Reader(toks, i + 2, names).expr()
    raise KeyError(var)


def local(src, func, names=None):
    """The literals assigned to variables in `func`."""
    text, first = function(src, func)
    toks = lex(text)
    toks = [(a, b, l + first) for a, b, l in toks] + [('eof', '', 0)] * 3
    names = dict(names or {})
    for i in range(len(toks) - 1):
        if toks[i + 1][1] == ':=' and (i == 0 or toks[i - 1][1] not in (',', 'for', 'if')):
            try:
                v = Reader(toks, i + 2, names).expr()
            except Exception:
                continue
            if isinstance(v, Lit):
                names[toks[i][1]] = v
    return names
