#!/usr/bin/env python3
"""Writes lean/Verif/Data/*.lean from the data files and literal tables in /repo.

Reads the files as text. YAML is read by the small parser below, which handles the subset used
by the data files and stops on everything else. Python literals are read with ast.
"""
import ast, glob, os, re, sys, unicodedata
from fractions import Fraction

REPO = '/repo/lulua'
OUT = os.path.join(os.path.dirname(os.path.dirname(os.path.abspath(__file__))), 'lean/Verif/Data')


# ---- YAML subset -------------------------------------------------------------------------

class Other:
    """A scalar that is not a text."""
    def __init__(self, v): self.v = v

def strip_comment(s):
    q = None
    i = 0
    while i < len(s):
        c = s[i]
        if q == '"':
            if c == '\\': i += 1
            elif c == '"': q = None
        elif q == "'":
            if c == "'": q = None
        elif c in '"\'' and (i == 0 or s[i-1] in ' [,-'):
            q = c
        elif c == '#' and (i == 0 or s[i-1] in ' \t'):
            return s[:i].rstrip()
        i += 1
    return s.rstrip()

def lines(text):
    out = []
    for l in text.split('\n'):
        l = strip_comment(l)
        if l.strip():
            out.append((len(l) - len(l.lstrip(' ')), l.strip(' ')))
    return out

INT = re.compile(r'^(0|[1-9][0-9]*)$')
FLOAT = re.compile(r'^[0-9]+\.[0-9]+$')
# everything YAML 1.1 gives a type, other than the two above
SPECIAL = re.compile(r'^[-+]?[0-9.][0-9_.:eExXa-fA-F+-]*$|^[-+]?\.(inf|nan)$|^(yes|no|on|off|y|n)$', re.I)

def scalar(s):
    if s.startswith('"'):
        assert s.endswith('"') and len(s) >= 2, s
        out, i, s = [], 0, s[1:-1]
        while i < len(s):
            if s[i] != '\\':
                assert s[i] != '"'
                out.append(s[i]); i += 1; continue
            e = s[i+1]
            simple = {'b': '\b', 't': '\t', 'n': '\n', '\\': '\\', '"': '"'}
            if e in simple: out.append(simple[e]); i += 2
            elif e in 'xuU':
                n = {'x': 2, 'u': 4, 'U': 8}[e]
                out.append(chr(int(s[i+2:i+2+n], 16))); i += 2 + n
            else: raise ValueError(s)
        return ''.join(out)
    if s.startswith("'"):
        assert s.endswith("'") and len(s) >= 2, s
        return s[1:-1].replace("''", "'")
    if s in ('null', '~', ''): return Other(None)
    if s in ('true', 'false'): return Other(s == 'true')
    if INT.match(s): return Other(int(s))
    if FLOAT.match(s): return Other(Fraction(s))
    if s == '.': return s
    if re.match(r'^\d{4}-\d\d-\d\d$', s): return Other(s)   # a date
    assert not SPECIAL.match(s) and s != '=' and s[0] not in '`@%&*!|>{}[],?-' , s
    assert ': ' not in s and not s.endswith(':'), s
    return s

def flow(s):
    assert s[0] == '[' and s[-1] == ']', s
    inner = s[1:-1].strip()
    return [scalar(x.strip()) for x in inner.split(',')] if inner else []

def value(s):
    return flow(s) if s.startswith('[') else scalar(s)

KEY = re.compile(r'^([A-Za-z0-9_]+):(?: +(.*))?$')

def block(ls, i, indent):
    """The node starting at line i, all of whose lines are indented by `indent` at least."""
    ind, s = ls[i]
    assert ind == indent, (ls[i], indent)
    if s.startswith('- '):
        out = []
        while i < len(ls) and ls[i][0] == indent and ls[i][1].startswith('- '):
            rest = ls[i][1][2:]
            sub = indent + 2 + (len(rest) - len(rest.lstrip(' ')))
            rest = rest.lstrip(' ')
            if rest.startswith('- ') or KEY.match(rest):
                ls[i] = (sub, rest)
                v, i = block(ls, i, sub)
            else:
                v = value(rest); i += 1
            out.append(v)
        return out, i
    out = []                       # mappings are lists of pairs, in order, duplicates kept
    while i < len(ls) and ls[i][0] == indent and not ls[i][1].startswith('- '):
        m = KEY.match(ls[i][1])
        assert m, ls[i]
        k, rest = m.group(1), (m.group(2) or '').strip()
        assert not SPECIAL.match(k) and not INT.match(k), k
        if rest:
            v = value(rest); i += 1
        else:
            i += 1
            if i < len(ls) and (ls[i][0] > indent or
                    (ls[i][0] == indent and ls[i][1].startswith('- '))):
                v, i = block(ls, i, ls[i][0])
            else:
                v = Other(None)
        out.append((k, v))
    return M(out), i

class M:
    def __init__(self, pairs): self.pairs = pairs
    def __getitem__(self, k):
        r = [v for (k2, v) in self.pairs if k2 == k]
        assert len(r) == 1, k
        return r[0]
    def keys(self): return [k for k, _ in self.pairs]
    def get(self, k): return self[k] if k in self.keys() else None

def load(path):
    ls = lines(open(path, encoding='utf8').read())
    v, i = block(ls, 0, 0)
    assert i == len(ls), (path, ls[i])
    return v


# ---- Lean syntax -------------------------------------------------------------------------

def lstr(s):
    assert all(32 <= ord(c) < 127 for c in s), s
    return '"' + s.replace('\\', '\\\\').replace('"', '\\"') + '"'

def lchar(c):
    assert ord(c) < 0x10000
    if c.isascii() and c.isalnum(): return f"'{c}'"
    return f"'\\u{ord(c):04x}'"

def ltext(s): return '[' + ', '.join(map(lchar, s)) + ']'

def lrat(v):
    f = Fraction(v)
    assert f >= 0
    return str(f.numerator) if f.denominator == 1 else f'{f.numerator}/{f.denominator}'

def wrap(items, indent, width=96):
    out, cur = [], ''
    for k, it in enumerate(items):
        it = it + (', ' if k + 1 < len(items) else '')
        if cur and len(cur) + len(it.rstrip()) + indent > width:
            out.append(cur.rstrip()); cur = ''
        cur += it
    out.append(cur)
    return ('\n' + ' ' * indent).join(out)

def write(name, head, body):
    with open(os.path.join(OUT, name), 'w', encoding='utf8') as fd:
        fd.write(head.strip() + '\n\nnamespace Lulua.Data\n\n' + body.strip() + '\n\nend Lulua.Data\n')


# ---- keyboard ----------------------------------------------------------------------------

def scval(v):
    if isinstance(v, list):
        assert all(isinstance(x, Other) and isinstance(x.v, int) for x in v)
        return '.list [' + ', '.join(str(x.v) for x in v) + ']'
    if isinstance(v, str): return f'.str {lstr(v)}'
    assert isinstance(v.v, int)
    return f'.num {v.v}'

def button(b):
    assert set(b.keys()) <= {'name', 'kind', 'width', 'isMarked', 'scancode', 'span'}, b.keys()
    f = [f'name := some {lstr(b["name"])}']
    if b.get('kind'): f.append(f'kind := some {lstr(b["kind"])}')
    if b.get('width'): f.append(f'width := some ({lrat(b["width"].v)})')
    if b.get('isMarked'): f.append(f'isMarked := some {str(b["isMarked"].v).lower()}')
    if b.get('scancode'):
        sc = ', '.join(f'({lstr(k)}, {scval(v)})' for k, v in b['scancode'].pairs)
        f.append(f'scancode := some (some [{sc}])')
    if b.get('span'): f.append(f'span := some {b["span"].v}')
    return '{ ' + ',\n          '.join(f) + ' }'

def keyboards():
    out = []
    for path in sorted(glob.glob(REPO + '/data/keyboards/*.yaml')):
        k = load(path)
        ident = os.path.basename(path)[:-5]
        assert k.keys() == ['name', 'description', 'rows']
        rows = []
        for r in k['rows']:
            assert len(r) == 2
            sides = ['[' + ',\n        '.join(button(b) for b in side) + ']' for side in r]
            rows.append('(' + ',\n       '.join(sides) + ')')
        out.append(f'/-- `lulua/data/keyboards/{os.path.basename(path)}`. -/\n'
            f'def {ident} : KeyboardData where\n  name := {lstr(k["name"])}\n'
            f'  description := {lstr(k["description"])}\n'
            f'  rows :=\n    [ ' + ',\n      '.join(rows) + ' ]\n')
    write('Keyboards.lean', '''
import Verif.Model.Keyboard

/-!
# The shipped keyboards

Written by `tools/gen_data.py` from `lulua/data/keyboards/`. Widths are the decimal numbers of the
file.
-/
''', '\n'.join(out))


# ---- layouts -----------------------------------------------------------------------------

def lval(v):
    if isinstance(v, str): return f'.str {ltext(v)}'
    return '.other 0'

def layouts():
    out, names = [], []
    for path in sorted(glob.glob(REPO + '/data/layouts/*.yaml')):
        d = load(path)
        base = os.path.basename(path)[:-5]
        ident = re.sub(r'-(.)', lambda m: m.group(1).upper(), base)
        if ident == 'null': ident = 'nullLayout'
        names.append(ident)
        assert {'name', 'layout'} <= set(d.keys())
        name = d['name'] if isinstance(d['name'], str) else 'None'
        ls = []
        for l in d['layout']:
            assert set(l.keys()) == {'layer', 'modifier'}
            mods = '[' + ', '.join('[' + ', '.join(map(lstr, m)) + ']' for m in l['modifier']) + ']'
            ents = wrap([f'({lstr(k)}, {lval(v)})' for k, v in l['layer'].pairs], 20)
            ls.append('{ modifier := ' + mods + '\n        layout := ofPairs [' + ents + '] }')
        out.append(f'/-- `lulua/data/layouts/{os.path.basename(path)}`. -/\n'
            f'def {ident} : LayoutData where\n  name := {lstr(name)}\n'
            f'  layout :=\n    [ ' + ',\n      '.join(ls) + ' ]\n')
    out.append('/-- All shipped layouts. -/\ndef layouts : List LayoutData :=\n  ['
        + wrap(names, 3) + ']\n')
    write('Layouts.lean', '''
import Verif.Model.Layout

/-!
# The shipped layouts

Written by `tools/gen_data.py` from `lulua/data/layouts/`. Entries are listed in the order of the
files; `ofPairs` is what the YAML loader makes of them.
-/
''', '''open Lulua.Dict (ofPairs)

''' + '\n'.join(out))
    return names


# ---- finger map and effort models --------------------------------------------------------

def assigned(tree, name):
    for n in tree.body:
        if isinstance(n, ast.Assign) and n.targets[0].id == name:
            return n.value

def expr(n):
    """A float expression, as an exact Lean expression of the decimal literals."""
    if isinstance(n, ast.Constant):
        return lrat(Fraction(repr(n.value)))
    if isinstance(n, ast.BinOp):
        op = {ast.Sub: '-', ast.Div: '/'}[type(n.op)]
        def par(x):
            s = expr(x)
            return s if re.match(r'^[0-9]+$', s) else f'({s})'
        return f'{par(n.left)} {op} {par(n.right)}'
    raise ValueError(ast.dump(n))

def tables():
    tree = ast.parse(open(REPO + '/writer.py', encoding='utf8').read())
    fm = assigned(tree, 'defaultFingermap')
    keys = [k.value for k in fm.keys]
    assert len(keys) == len(set(keys))
    ents = [f'({lstr(k)}, .{v.elts[0].id.lower()}, .{v.elts[1].id.lower()})'
        for k, v in zip(keys, fm.values)]
    body = ['/-- `defaultFingermap` (`writer.py:28-108`). -/\n'
        'def fingermap : Dict String (Direction × Finger) :=\n  [' + wrap(ents, 3) + ']\n']
    tree = ast.parse(open(REPO + '/carpalx.py', encoding='utf8').read())
    models = assigned(tree, 'models')
    names = []
    for kw in models.keywords:
        names.append(kw.arg)
        f = {k.arg: k.value for k in kw.value.keywords}
        def tup(n): return '(' + ', '.join(expr(e) for e in n.elts) + ')'
        def dct(n, key, val):
            ks = [key(k) for k in n.keys]
            assert len(ks) == len(set(ks))
            return '[' + wrap([f'({k}, {val(v)})' for k, v in zip(ks, n.values)], 5) + ']'
        enum = lambda k: '.' + k.id.lower()
        body.append(f'/-- `models[\'{kw.arg}\']` (`carpalx.py:{kw.value.lineno}-{kw.value.end_lineno}`). -/\n'
            f'def {kw.arg} : ModelParams where\n'
            f'  kBPS := {tup(f["kBPS"])}\n'
            f'  k123S := {tup(f["k123S"])}\n'
            f'  w0HRF := {tup(f["w0HRF"])}\n'
            f'  pHand := {dct(f["pHand"], enum, expr)}\n'
            f'  pRow := [{", ".join(expr(e) for e in f["pRow"].elts)}]\n'
            f'  pFinger :=\n    {dct(f["pFinger"], enum, lambda d: dct(d, enum, expr))}\n'
            f'  fHRF := {tup(f["fHRF"])}\n'
            f'  baselineEffort :=\n    {dct(f["baselineEffort"], lambda k: lstr(k.value), expr)}\n')
    body.append('/-- `models` (`carpalx.py:46-234`). -/\ndef models : List ModelParams := ['
        + ', '.join(names) + ']\n')
    write('Tables.lean', '''
import Verif.Model.Carpalx

/-!
# The finger map and the parameters of the effort models

Written by `tools/gen_data.py` from `lulua/writer.py` and `lulua/carpalx.py`. Numbers are the
decimal numbers of the source.
-/
''', '\n'.join(body))


# ---- Windows driver ----------------------------------------------------------------------

def winkbd():
    src = open(f'{REPO}/winkbd.py').read()
    tree = ast.parse(src)
    asg = {n.targets[0].id: n for n in tree.body if isinstance(n, ast.Assign) and isinstance(n.targets[0], ast.Name)}
    vk = {kw.arg: kw.value.value for kw in asg['vkval'].value.keywords}
    for i in range(ord('0'), ord('9')+1): vk[f'NUMBER{chr(i)}'] = i
    for i in range(ord('A'), ord('Z')+1): vk[chr(i)] = i
    flags = {n.targets[0].id: n.value.value for c in tree.body if isinstance(c, ast.ClassDef) and c.name == 'VirtualKeyFlag'
        for n in c.body if isinstance(n, ast.Assign)}
    def member(e):
        assert isinstance(e, ast.Attribute)
        if e.value.id == 'VirtualKey': return f'.key 0x{vk[e.attr]:02X}'
        assert e.value.id == 'VirtualKeyFlag'
        return f'.flag 0x{flags[e.attr]:04X}'
    code = lambda k: '[' + ', '.join(f'0x{e.value:02X}' for e in k.elts) + ']'
    m = asg['qwertyScancodeToVk']
    seen = [code(k) for k in m.value.keys]
    assert len(set(seen)) == len(seen)
    body = []
    body.append(f'/-- `qwertyScancodeToVk` (`winkbd.py:{m.lineno}-{m.end_lineno}`). -/\n'
        'def qwertyScancodeToVk : Dict (List Nat) (List VkVal) :=\n  [' +
        wrap([f'({code(k)}, [{", ".join(member(e) for e in v.elts)}])' for k, v in zip(m.value.keys, m.value.values)], 3) + ']\n')
    m = asg['qwertyScancodeToName']
    seen = [code(k) for k in m.value.keys]
    assert len(set(seen)) == len(seen)
    body.append(f'/-- `qwertyScancodeToName` (`winkbd.py:{m.lineno}-{m.end_lineno}`). -/\n'
        'def qwertyScancodeToName : Dict (List Nat) String :=\n  [' +
        wrap([f'({code(k)}, {lstr(v.value)})' for k, v in zip(m.value.keys, m.value.values)], 3) + ']\n')
    m = asg['vkval']
    lines = [i + 1 for i, l in enumerate(src.split('\n')) if l.startswith("    vkval[chr (i)] = i")]
    body.append(f'/-- `vkval` (`winkbd.py:{m.lineno}-{lines[0]}`). -/\n'
        'def vkval : Dict String Nat :=\n  [' +
        wrap([f'({lstr(k)}, 0x{v:02X})' for k, v in vk.items()], 3) + ']\n')
    write('WinKbd.lean', """
import Verif.Model.WinKbd

/-!
# Tables of the Windows driver

Written by `tools/gen_data.py` from `lulua/winkbd.py`. Virtual keys and flags are given by their numbers.
-/
""", '\n'.join(body))


# ---- composed texts ----------------------------------------------------------------------

def composed():
    texts = set()
    for path in glob.glob(REPO + '/data/layouts/*.yaml'):
        for l in load(path)['layout']:
            texts |= {v for _, v in l['layer'].pairs if isinstance(v, str)}
    ents = [f'({ltext(t)}, {ltext(unicodedata.normalize("NFC", t))})' for t in sorted(texts)]
    write('Composed.lean', """
import Verif.Model.Layout

/-!
# The composed form of the texts of the shipped layouts

Written by `tools/gen_data.py` with Python's `unicodedata`.
-/
""", f'/-- Text and `unicodedata.normalize (\'NFC\', text)`; Unicode {unicodedata.unidata_version}. -/\n'
        'def composedTexts : Dict Text Text :=\n  [' + wrap(ents, 3) + ']\n')


def styles():
    def lines(name):
        text = open(REPO + '/data/' + name, encoding='utf8').read()
        assert text.endswith('\n') and '\r' not in text and text.isascii()
        return ['[' + ', '.join("'" + {'\t': '\\t', "'": "\\'", '\\': '\\\\'}.get(c, c) + "'" for c in l) + ']'
            for l in text[:-1].split('\n')]
    body = ''.join(f'/-- The lines of `data/{name}`. -/\ndef {ident} : List Text :=\n  [' + ',\n   '.join(lines(name)) + ']\n\n'
        for name, ident in (('render-svg.css', 'renderSvgCss'), ('render-svg-print.css', 'renderSvgPrintCss')))
    write('Styles.lean', """
import Verif.Model.Layout

/-!
# The style sheets of pictures

Written by `tools/gen_data.py`.
-/
""", body)


if __name__ == '__main__':
    keyboards()
    layouts()
    tables()
    winkbd()
    composed()
    styles()
