"""parser/scanner/scanner_test.go and parser/token/token_test.go as Lean examples."""
import re
from golit import table, local
from lean import *

m = Module('Scanner', ['Replay.Env'],
           'parser/scanner/scanner_test.go, parser/token/token_test.go and the test of scanning in\n'
           'parser/parser_test.go on the model (written by tools/replay/scanner.py).')
ex = m.ex
src = m.open('parser/scanner/scanner_test.go')

RUNES = {'Comma': ',', 'Dot': '.', 'LParen': '(', 'RParen': ')', 'Minus': '-', 'Plus': '+', 'Star': '*',
         'Slash': '/', 'Percent': '%', 'Equal': '=', 'Less': '<', 'Greater': '>', 'Ampersand': '&',
         'Bar': '|'}
KINDS = {'EOF': '.eof', 'EndOfStatement': '.endOfStatement', 'Error': '.error',
         'Identifier': '.identifier', 'Reserved': '.reserved', 'String': '.string',
         'Bytes': '.bytes', 'Integer': '.integer', 'Float': '.float', 'Parameter': '.parameter',
         'BarBar': '.barBar', 'LessLess': '.lessLess', 'LessEqual': '.lessEqual',
         'LessGreater': '.lessGreater', 'GreaterGreater': '.greaterGreater',
         'GreaterEqual': '.greaterEqual', 'EqualEqual': '.equalEqual', 'BangEqual': '.bangEqual'}


def kind(v):
    n = last(v)
    return '.rune 0x%x' % ord(RUNES[n]) if n in RUNES else KINDS[n]


names = {}
for v in ('cases', 'string_cases', 'bytes_cases', 'integers', 'doubles', 'parameters'):
    names[v] = table(src, 'TestScan', v)
for c in chunks(names['cases'].vals(), 6):
    ex(c[0].line, '∀ c ∈ ([%s] : List (String × Kind)), (scanned c.1).kind = c.2' % ', '.join(
        '(%s, %s)' % (string(v.vals()[0][1]), kind(v.vals()[1])) for v in c))
for c in chunks(names['string_cases'].vals(), 6):
    ex(c[0].line, '∀ c ∈ ([%s] : List (String × Bytes)), scanned c.1 = .string c.2' % ', '.join(
        '(%s, ascii %s)' % (string(v.vals()[0][1]), string(v.vals()[1][1])) for v in c))
for v in names['bytes_cases'].vals():
    ex(v.line, 'scanned %s = .bytes %s' % (string(v.vals()[0][1]), bytesOf(v.vals()[1])))
for c in chunks(names['integers'].vals(), 6):
    ex(c[0].line, '∀ c ∈ ([%s] : List (String × BitVec 64)), scanned c.1 = .integer c.2' % ', '.join(
        '(%s, %s)' % (string(v.vals()[0][1]), int64(num(v.vals()[1]))) for v in c))
for c in chunks(names['doubles'].vals(), 6):
    ex(c[0].line, '∀ c ∈ ([%s] : List (String × F64)), scanned c.1 = .float c.2' % ', '.join(
        '(%s, %s)' % (string(v.vals()[0][1]), bits(flt(v.vals()[1]))) for v in c))
for c in chunks(names['parameters'].vals(), 6):
    ex(c[0].line, '∀ c ∈ ([%s] : List (String × BitVec 64)), scanned c.1 = .parameter c.2' % ', '.join(
        '(%s, %s)' % (string(v.vals()[0][1]), int64(num(v.vals()[1]))) for v in c))
text = re.search(r'src := `(.*?)`', src, re.S)
line = src[:text.start()].count('\n') + 1
ex(line, 'tokenize env.toScanEnv (runes %s) = [.reserved Kw.CREATE, .identifier (Q "create"), '
   '.string (ascii "create"), .identifier (Q "abcd")]' % string(text.group(1).encode()))

src = m.open('parser/parser_test.go')
text = re.search(r's := `(create foobar.*?)`', src, re.S)
line = src[:text.start()].count('\n') + 1
ex(line, '(tokenize env.toScanEnv (runes %s)).map Token.kind = [.reserved, .identifier, %s, .integer, '
   '%s, %s, %s, .string, .identifier, .endOfStatement, .float]' % (
       string(text.group(1).encode()), *['.rune 0x%x' % ord(c) for c in '*(,)']))

src = m.open('parser/token/token_test.go')
ex(8, '∀ r ∈ List.range 2000, isOpRune r = decide (r ∈ "-+*/%=<>&|!".toList.map Char.toNat)')
ex(22, '∀ p ∈ operators, ∀ r ∈ p.1, isOpRune r = true')
m.write()
