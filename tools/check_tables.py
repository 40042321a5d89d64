"""Compare the format tables in lean/Verif/Model/Format.lean with the text of /repo/commonxl."""
import re, sys
L = open('/verif/lean/Verif/Model/Format.lean', encoding='utf8').read()
F = open('/repo/commonxl/formats.go', encoding='utf8').read()
G = open('/repo/commonxl/fmt.go', encoding='utf8').read()

def lean_block(name):
    m = re.search(r'def %s : .*?\n(.*?)\| _ => none' % name, L, re.S)
    out = {}
    for part in re.split(r'\n  \| (?=\d)', '\n' + m.group(1)):
        if '=>' not in part: continue
        ks, v = part.split('=>', 1)
        for k in ks.split('|'):
            k = int(k)
            assert k not in out, k
            out[k] = ' '.join(v.split())
    return out

def go_map(text, name):
    body = re.search(r'var %s = map\[uint16\]\w+\{\n(.*?)\n\}' % name, text, re.S).group(1)
    out = {}
    for part in re.split(r'\n(?=\t\d+:)', '\n' + body):
        m = re.match(r'\s*(\d+):\s*(.*)', part, re.S)
        if not m: continue
        v = re.sub(r'//.*', '', m.group(2))
        out[int(m.group(1))] = ' '.join(v.split()).rstrip(',').strip()
    return out

def s(x): return '(lit "%s")' % x.replace('\\', '\\\\').replace('"', '\\"')
bad = 0
def cmp(name, lean, want):
    global bad
    for k in sorted(set(lean) | set(want)):
        if lean.get(k) != want.get(k):
            bad += 1; print(name, k, 'lean:', lean.get(k), 'go:', want.get(k))
    print(name, len(lean), len(want))

g = go_map(F, 'builtInFormats')
cmp('builtInFormats', lean_block('builtInFormats'),
    {k: 'some ' + s(re.match(r'`(.*?)`', v).group(1)) for k, v in g.items()})
T = dict(IntegerCell='integer', FloatCell='float', DateCell='date', StringCell='string')
cmp('builtInFormatTypes', lean_block('builtInFormatTypes'),
    {k: 'some .' + T[v.rstrip(',').strip()] for k, v in go_map(F, 'builtInFormatTypes').items()})

def tr(e):
    """Go expression -> Lean term text"""
    e = e.strip().rstrip(',').strip()
    if e == 'identFunc': return '.ident'
    f, a = re.match(r'(\w+)\((.*)\)$', e, re.S).groups()
    args, d, q, cur = [], 0, None, ''
    for c in a:
        if q:
            if c == q: q = None
        elif c in '`"': q = c
        elif c == '(': d += 1
        elif c == ')': d -= 1
        if c == ',' and d == 0 and q is None: args.append(cur.strip()); cur = ''
        else: cur += c
    if cur.strip(): args.append(cur.strip())
    st = lambda x: '[]' if x[1:-1] == '' else s(x[1:-1])
    p = lambda t: t if t in ('.ident',) else '(%s)' % t
    if f == 'timeFmtFunc': return '.time ' + st(args[0])
    if f == 'cnTimeFmtFunc': return '.cnTime ' + st(args[0])
    if f == 'staticFmtFunc': return '.static ' + st(args[0])
    if f == 'fracFmtFunc': return '.frac ' + args[0]
    if f == 'sprintfFunc':
        t = args[0][1:-1]
        v = {'%d': '(.d 0 [])', '%d%%': '(.d 0 [37])'}.get(t, '(.f %s)' % s(t))
        return '.sprintf %s %s' % (v, args[1])
    if f == 'addCommas': return '.commas ' + p(tr(args[0]))
    if f == 'addNegParens': return '.negParens ' + p(tr(args[0]))
    if f == 'zeroDashFunc': return '.zeroDash ' + p(tr(args[0]))
    if f == 'surround': return '.surround %s %s %s' % (st(args[0]), p(tr(args[1])), st(args[2]))
    if f == 'switchFmtFunc':
        return 'switchFmt %s [%s]' % (p(tr(args[0])), ', '.join(tr(x) for x in args[1:]))
    raise SystemExit('unknown ' + f)
cmp('goFormatters', lean_block('goFormatters'),
    {k: 'some ' + (tr(v) if tr(v) == '.ident' else '(%s)' % tr(v)) for k, v in go_map(G, 'goFormatters').items()})
sys.exit(1 if bad else 0)
