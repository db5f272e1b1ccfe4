"""evaluate/evaluate_test.go and evaluate/session_test.go as Lean examples."""
import re

OUT = '/verif/lean/Verif/Replay/Evaluate.lean'


def cases(src, name):
    """The cases of a test: text of the statement, what follows from it."""
    start = src.index('func %s(' % name)
    body = src[start:src.index('\n}\n', start)]
    line = src[:start].count('\n') + 1
    n = body.count('mustParse(') + body.count('fn: func')
    l = []
    for m in re.finditer(r'\n\t\t\t?\{\n(.*?)\n\t\t\t?\},(?=\n)', body, re.S):
        c = m.group(1)
        fail = bool(re.search(r'\bfail:\s+true', c))
        panicked = bool(re.search(r'\bpanicked:\s+true', c))
        trace = re.search(r'\btrace:\s+(?:"([^"]*)"|`([^`]*)`)', c)
        trace = (trace.group(1) or trace.group(2)).split('\n') if trace else []
        stmt = re.search(r'mustParse\("([^"]*)"\)', c)
        if stmt:
            l.append(('stmt', stmt.group(1), 'panic' if panicked else 'fail' if fail else 'ok', trace))
            continue
        ids = re.search(r'testList(Schemas|Tables)\(t, tx, \w+, testutil.MustParseIdentifiers\("([^"]*)"', c)
        if ids:
            l.append((ids.group(1).lower(), ids.group(2).split(', '), trace))
            continue
        its = re.findall(r'Name: types.ID\("(\w+)", false\),\s+Key: \[\]types.ColumnKey\{(.*?)\n\t*\},',
                         c, re.S)
        its = [(i, re.findall(r'MakeColumnKey\((\d+), (\w+)\)', k)) for i, k in its]
        assert its and 'testListIndexes(t, tx, tn1,' in c, c
        l.append(('indexes', its, trace))
    assert len(l) == n, (name, len(l), n)
    return line, l


def strings(l):
    return '[%s]' % ', '.join('"%s"' % s for s in l)


def term(c):
    if c[0] == 'stmt':
        return '.stmt "%s" .%s %s' % (c[1], c[2], strings(c[3]))
    if c[0] == 'schemas':
        assert c[2] == ['ListSchemas(db)']
        return '.schemas (I "db") [%s]' % ', '.join('I "%s"' % s for s in c[1])
    if c[0] == 'tables':
        assert c[2] == ['ListTables(db.sn)']
        return '.tables ⟨I "db", I "sn"⟩ [%s]' % ', '.join('I "%s"' % s for s in c[1])
    assert c[2] == ['OpenTable(db.sn.t1)']
    return '.indexes ⟨I "db", I "sn", I "t1"⟩ [%s]' % ', '.join(
        '⟨I "%s", [%s]⟩' % (i, ', '.join('makeColumnKey %s %s' % k for k in ks)) for i, ks in c[1])


def wrap(s):
    """Lines of at most 100 characters, broken after a comma between terms."""
    s = '    ' + s
    while len(s) > 100:
        i = max(m.end() for m in re.finditer(r'\.ok |\.fail |", |⟩ |⟩, |, (?=makeColumnKey)', s[:100]))
        yield s[:i].rstrip()
        s = '      ' + s[i:]
    yield s


def write(out, file, name, fn):
    src = open('/repo/evaluate/' + file).read()
    line, l = cases(src, name)
    out.append('/-- evaluate/%s:%d `%s` -/' % (file, line, name))
    text = [line for c in l for line in wrap(term(c) + ',')]
    text[-1] = text[-1][:-1]
    out.append('example : %s [\n%s] = true := by\n  decide +kernel\n' % (fn, '\n'.join(text)))


src = open(OUT).read()
mark = '/-! ### The cases (written by tools/replay/evaluate.py) -/\n'
out = [src[:src.index(mark)] + mark]
write(out, 'session_test.go', 'TestSessionBegin', 'sessionCases')
write(out, 'session_test.go', 'TestSessionEvaluate', 'sessionCases')
for t in ('TestEvaluatePanic', 'TestEvaluateCreateSchema', 'TestEvaluateCreateTable',
          'TestEvaluateCreateIndex'):
    write(out, 'evaluate_test.go', t, 'evaluateCases')
out.append('end Maho.Replay')
open(OUT, 'w').write('\n'.join(out) + '\n')
