#!/usr/bin/env python3
"""Transcribes the assertions of /repo/tests/YstringTest into Lean examples about the model (lean/Verif/Tests/Upstream*.lean)."""
import re, sys
T = '/repo/tests/YstringTest/'
MACROS = {}
for l in open(T + 'Utf8Chars.hpp', encoding='utf-8'):
    m = re.match(r'#define (UTF8_\w+)\s+"(.*)"', l)
    if m: MACROS[m.group(1)] = m.group(2)

def unesc(s):
    """contents of a C++ literal -> list of ('b', byte) / ('c', code point)"""
    out = []; i = 0
    while i < len(s):
        c = s[i]
        if c != '\\': out.append(('c', ord(c))); i += 1; continue
        d = s[i+1]
        simple = {'n':10,'r':13,'t':9,'a':7,'b':8,'f':12,'v':11,'\\':92,"'":39,'"':34}
        if d in simple: out.append(('b', simple[d])); i += 2
        elif d == 'x':
            m = re.match(r'[0-9A-Fa-f]+', s[i+2:]); out.append(('b', int(m.group(0), 16))); i += 2 + len(m.group(0))
        elif d == 'u': out.append(('c', int(s[i+2:i+6], 16))); i += 6
        elif d == 'U': out.append(('c', int(s[i+2:i+10], 16))); i += 10
        else:
            m = re.match(r'[0-7]{1,3}', s[i+1:]); out.append(('b', int(m.group(0), 8))); i += 1 + len(m.group(0))
    return out
def tobytes(items): 
    r = b''
    for k, v in items: r += bytes([v]) if k == 'b' else chr(v).encode('utf-8')
    return r
def lstr(b): return '[' + ', '.join('0x%02X' % x for x in b) + ']'
def l32(cs): return '[' + ', '.join('0x%X' % x for x in cs) + ']'

TOK = re.compile(r'\s*(?:(R"\(.*?\)")|((?:u8|U)?"(?:[^"\\]|\\.)*")|([uU]?\'(?:[^\'\\]|\\.[^\']*)\')|(0x[0-9A-Fa-f]+|\d+)|((?:\w+::)*\w+)|(==|[-!(){},.<>\[\];]))', re.S)
def tokenize(s):
    out = []; i = 0
    while i < len(s.rstrip()):
        m = TOK.match(s, i)
        if not m: raise ValueError(s[i:])
        out.append((m.lastindex, m.group(m.lastindex))); i = m.end()
    return out
class P:
    def __init__(s, toks): s.t = toks; s.i = 0
    def peek(s): return s.t[s.i] if s.i < len(s.t) else (0, '')
    def get(s): s.i += 1; return s.t[s.i-1]
    def expr(s):
        a = s.un()
        if s.peek()[1] in ('==', '<', '>'):
            op = s.get()[1]; b = s.un(); return ('op', op, a, b)
        return a
    def un(s):
        if s.peek()[1] == '!': s.get(); return ('not', s.un())
        if s.peek()[1] == '-': s.get(); return ('int', -s.un()[1])
        return s.post()
    def post(s):
        a = s.prim()
        while s.peek()[1] == '.':
            s.get(); n = s.get()[1]
            if s.peek()[1] == '(': s.get(); s.get(); a = ('method', n, a)
            else: a = ('field', n, a)
        return a
    def prim(s):
        k, v = s.get()
        if k in (1, 2) or v in MACROS:
            s.i -= 1; items = []; wide = False
            while s.peek()[0] in (1, 2) or s.peek()[1] in MACROS:
                k, v = s.get()
                if k == 1: items += [('c', ord(c)) for c in v[3:-2]]
                elif k == 2:
                    wide = wide or v.startswith('U')
                    items += unesc(v[v.index('"')+1:-1])
                else: items += unesc(MACROS[v])
            return ('s32', [x for _, x in items]) if wide else ('str', tobytes(items))
        if k == 3:
            [(kk, x)] = unesc(v[v.index("'")+1:-1]); return ('chr', x)
        if k == 4: return ('int', int(v, 0))
        if v == '(':
            e = s.expr(); s.get(); return e
        if v == '[':                      # the lambda of the find_*_where tests
            while s.peek()[1] != '}': s.get()
            s.get(); return ('lean', 'isUpper')
        if v == '{':
            a = s.args('}'); return ('brace', a)
        if k == 5:
            if s.peek()[1] == '(':
                s.get(); a = s.args(')')
                if v == 'U8': return a[0]
                if v == 'sv': return ('list', a[0][1])
                return ('call', v, a)
            return ('id', v)
        raise ValueError((k, v))
    def args(s, close):
        a = []
        while s.peek()[1] != close:
            a.append(s.expr())
            if s.peek()[1] == ',': s.get()
        s.get(); return a

# C++ name -> (Lean name, result kind, pure)
FN = {}
def fn(names, kind, pure=False):
    for n in names.split():
        c = n.replace('case_insensitive::', '')
        parts = c.split('_'); lean = parts[0] + ''.join(p.capitalize() for p in parts[1:])
        if lean == 'splitLines' or lean.endswith('Newline'): lean += ' []'
        if lean == 'toUtf32' or lean == 'fromUtf32': pass
        FN[n] = (('CI.' if n != c else '') + lean, kind, pure)
CI = 'case_insensitive::'
fn('append replace replace_chars replace_codepoints replace_codepoint replace_invalid_utf8 reverse insert_char insert_chars insert_codepoint '
   'insert_codepoints get_char_substring get_codepoint_substring trim trim_start trim_end to_lower to_title to_upper unescape escape_json '
   'to_decomposed to_composed '+CI+'replace', 'str')
fn('contains ends_with starts_with is_valid_utf8 has_escaped_chars '+' '.join(CI+x for x in 'equal less ends_with starts_with'.split()), 'bool')
fn(CI+'compare', 'int'); fn('count_chars count_codepoints get_char_pos get_codepoint_pos', 'nat')
fn('find_first find_first_newline find_last_newline get_char_range get_next_char_range get_prev_char_range '+CI+'find_first '+CI+'find_last', 'sub')
fn('find_last', 'sub', True)
fn('find_first_of find_last_of find_first_where find_last_where get_codepoint '+CI+'find_first_of '+CI+'find_last_of', 'pair')
fn('split split_lines '+CI+'split', 'list'); fn('to_utf32 decompose', 's32'); fn('from_utf32', 'str', True); fn('get_char_class', 'cls', True)
fn('join', 'str', True)
ENV = {}
def val(e):
    k = e[0]
    if k == 'str': return lstr(e[1])
    if k == 's32': return l32(e[1])
    if k == 'chr': return '0x%X' % e[1]
    if k == 'int': return '(%d)' % e[1] if e[1] < 0 else str(e[1])
    if k == 'lean': return e[1]
    if k == 'list': return '[' + ', '.join(val(x) for x in e[1]) + ']'
    if k == 'brace':
        a = [x[1] for x in e[1]]
        return '⟨%d, %s⟩' % (a[0], str(a[1]) if len(a) > 1 else 'false')
    if k == 'id':
        v = e[1]
        if v in ENV: return val(ENV[v])
        if v == 'IGNORE_EMPTY': return 'IGNORE_EMPTY'
        if v in ('true', 'false'): return v
        if v == 'std::string_view::npos': return 'npos'
        if v.startswith('ystring::CharClass::'): return 'CharClass.' + v.split('::')[-1]
    if k == 'call' and e[1] == 'Subrange': return '⟨%s, %s⟩' % (val(e[2][0]), val(e[2][1]))
    if k == 'call' and e[1] == 'char32_t': return val(e[2][0])
    raise ValueError(e)
def kindof(e):
    return ENV[e[1]][0] if e[0] == 'id' and e[1] in ENV else e[0]
def call(e):
    name = e[1].replace('ystring::', ''); lean, kind, pure = FN[name]; args = e[2]
    if name in ('to_lower', 'to_upper', 'to_title') and kindof(args[0]) == 'chr': return lean + 'Char ' + val(args[0]), 'chr', True
    if name == 'from_utf32' and kindof(args[0]) == 'chr': lean = 'fromUtf32Char'
    if name in ('split', CI+'split') and kindof(args[1]) in ('s32',): lean = lean.replace('split', 'splitChars')
    if name == 'append': return None
    return lean + ' ' + ' '.join(val(a) for a in args), kind, pure
def isok(x, pure): return x if pure else '.ok ' + x
def require(src):
    """Lean proposition for REQUIRE(src)"""
    e = P(tokenize(src)).expr()
    neg = False
    if e[0] == 'not': neg = True; e = e[1]
    if e[0] == 'op':
        _, op, a, b = e
        if a[0] == 'call':
            c, kind, pure = call(a)
            if op == '==' and kind == 'int': op = None; return c + ' = .ok 0'
            if op in '<>' : return '(%s).map (fun c => decide (c %s 0)) = .ok true' % (c, op)
            return '%s = %s' % (c, isok('(%s)' % val(b) if b[0] == 'list' else val(b), pure))
        raise ValueError(e)
    if e[0] == 'method' and e[1] == 'empty':
        c, kind, pure = call(e[2]); return '%s = %s' % (c, isok('[]', pure))
    if e[0] == 'field' and e[1] == 'first' and neg:
        c, kind, pure = call(e[2]); return '(%s).map (·.1.nonempty) = .ok false' % c
    if e[0] == 'call':
        c, kind, pure = call(e)
        if kind == 'bool': return '%s = .ok %s' % (c, 'false' if neg else 'true')
        if kind == 'sub' and neg: return ('(%s).nonempty = false' if pure else '(%s).map (·.nonempty) = .ok false') % c
    raise ValueError(e)

def balanced(s, i):
    """text inside the parenthesis that opens at i"""
    d = 0; j = i
    while True:
        c = s[j]
        if c == '"':
            if s[j-1] == 'R': j = s.index(')"', j) + 1
            else:
                j += 1
                while s[j] != '"': j += 2 if s[j] == '\\' else 1
        elif c == "'":
            j += 1
            while s[j] != "'": j += 2 if s[j] == '\\' else 1
        elif c == '(': d += 1
        elif c == ')':
            d -= 1
            if d == 0: return s[i+1:j], j
        j += 1

def translate(fname, skip=()):
    src = open(T + fname, encoding='utf-8').read()
    out = []; n = 0; skipped = []
    for tc in re.finditer(r'^TEST_CASE\("(.*?)"\)\n\{\n(.*?)^\}', src, re.M | re.S):
        title, body, base = tc.group(1), tc.group(2), src[:tc.start(2)].count('\n') + 1
        ENV.clear(); exs = []
        if title in skip or title.startswith('unescape_next'): skipped.append(title); continue
        for m in re.finditer(r'^    (char32_t (\w+)\[\d*\] = \{(.*?)\};|std::u32string_view CHAR_SPAN\(CHARS\);|std::string s( = |\()(".*?")\)?;|std::string_view strings.*?;|REQUIRE(?:_FALSE)?\(|REQUIRE_THROWS\(|CHECK_CHAR_SEARCH\(|auto result = |result = )', body, re.M):
            line = base + body[:m.start()].count('\n')
            h = m.group(1); cite = '%s:%d' % (fname, line)
            if h.startswith('char32_t'):
                ENV[m.group(2)] = ('s32', [x[1] for x in P(tokenize('{' + m.group(3) + '}')).expr()[1]]); continue
            if h.startswith('std::u32'): ENV['CHAR_SPAN'] = ENV['CHARS']; continue
            if h.startswith('std::string s'): ENV['s'] = P(tokenize(m.group(5))).expr(); continue
            if h.startswith('std::string_view strings'): continue
            if h.endswith('result = '):
                j = m.end(); k = body.index('(', j); inner, e = balanced(body, k)
                c, kind, pure = call(P(tokenize(body[j:e+1])).expr())
                rest = body[e:]
                a = re.search(r'first == (Subrange\(.*?\))\);', rest).group(1); b = re.search(r"second == (U'.')\)", rest).group(1)
                p = '%s = .ok (%s, %s)' % (c, val(P(tokenize(a)).expr()), val(P(tokenize(b)).expr()))
                exs.append((p, cite)); continue
            inner, e = balanced(body, m.end() - 1)
            if inner.startswith('result.'): continue
            if h.startswith('REQUIRE_THROWS'):
                c, kind, pure = call(P(tokenize(inner)).expr()); p = '%s = .error .ystring' % c
            elif h.startswith('CHECK'):
                a = P(tokenize('(' + inner + ')')); a.get(); a = a.args(')')
                c, kind, pure = call(a[0]); p = '%s = .ok (⟨%s, %s⟩, %s)' % (c, val(a[1]), val(a[2]), val(a[3]))
            elif h.startswith('REQUIRE_FALSE'): p = require('!' + inner)
            else: p = require(inner)
            exs.append((p, cite))
        out.append((title, exs)); n += len(exs)
    return out, n, skipped

def emit(groups):
    r = []
    for title, exs in groups:
        r.append('\n-- %s' % title)
        for p, cite in exs: r.append('example : %s := by decide +kernel -- %s' % (p, cite))
    return '\n'.join(r)

def seqtest(fname, marker, f):
    src = open(T + fname, encoding='utf-8').read().split('\n')
    return [(f(l), '%s:%d' % (fname, i + 1)) for i, l in enumerate(src) if re.match(marker, l)]

HEAD = '''%s
/-
Generated by tools/gen_conformance.py: the assertions of the unit tests in /repo/tests/YstringTest (%s), transcribed for the
model. These examples are no proofs of properties: they test that the model computes what the authors of the code expect it to
compute. The number behind each example is the line of the assertion.
%s-/
namespace Ystring
'''
def write(name, imports, files, note, body, extra=''):
    path = '/verif/lean/Verif/Tests/%s.lean' % name
    open(path, 'w').write(HEAD % ('\n'.join('import Verif.Model.' + i for i in imports), files, note) + extra + body + '\n\nend Ystring\n')

total = 0
# --- Algorithms
g, n, sk = translate('test_Algorithms.cpp', skip=('Test append', 'Test join', 'Test replace_invalid_utf8, mutable string'))
fe = lambda s: lstr(s.encode('utf-8'))
g.append(('Test append', [('append [] 0x2211 = .ok %s' % fe('∑'), 'test_Algorithms.cpp:26'),
  ('append %s 0x131 = .ok %s' % (fe('∑'), fe('∑ı')), 'test_Algorithms.cpp:27'),
  ('append %s 0x200000 = .error .ystring' % fe('∑ı'), 'test_Algorithms.cpp:28')]))
ws = ["Lorem", "ipsum", "dolor", "sit", "amet"]
g.append(('Test join', [('join [] %s = []' % fe(', '), 'test_Algorithms.cpp:355'),
  ('join [%s] %s = %s' % (', '.join(fe(w) for w in ws), fe(', '), fe(', '.join(ws))), 'test_Algorithms.cpp:356')]))
bad = lstr('Øbk'.encode() + b'\xE0\xAF' + 'æø'.encode())
g.append(('Test replace_invalid_utf8, mutable string', [('replaceInvalidUtf8InPlace %s 0x2122 = .ok %s' % (bad, fe('Øbk™æø')), 'test_Algorithms.cpp:396'),
  ('replaceInvalidUtf8InPlace %s 0x2122 = .ok %s' % (fe('Øbk™æø'), fe('Øbk™æø')), 'test_Algorithms.cpp:397')]))
n += 7; total += n; print('Algorithms', n, sk)
write('UpstreamAlgorithms', ['Algorithms', 'CaseInsensitive', 'CharClass'], 'test_Algorithms.cpp',
  '''The arrays `chars` and `CHARS` of the tests are not terminated by a zero although they are used as pointers; the model gets what is
meant. The array NEWLINES in the code is not terminated either: the examples assume a zero behind it.\n''', emit(g))
# --- the others
body = ''
for f, skip in (('test_CharClass.cpp', ()), ('test_ConvertCase.cpp', ()), ('test_Escape.cpp', ()), ('test_Normalize.cpp', ()), ('test_Utf32.cpp', ())):
    g, n, sk = translate(f, skip); total += n; print(f, n, sk); body += emit(g)
def enc(l):
    e = P(tokenize('(' + l.strip()[len('testEncodeArray('):-2] + ')')); e.get(); a = e.args(')')
    c = a[0][1]; x = a[1]
    b = x[1] if x[0] == 'str' else b'' if x[0] == 'brace' else x[2][0][1]
    return 'encodeUtf8Buf 0x%X 4 = (%s, %d)' % (c, lstr(b), len(b))
ex = seqtest('test_EncodeUtf8.cpp', r'    testEncodeArray\(', enc)
total += len(ex); body += emit([('Test encode_utf8', ex)]); print('Encode', len(ex))
write('UpstreamTables', ['ConvertCase', 'CharClass', 'Escape', 'Normalize', 'Utf8'], 'test_CharClass.cpp, test_ConvertCase.cpp, test_EncodeUtf8.cpp, test_Escape.cpp, test_Normalize.cpp, test_Utf32.cpp', '', body)
# --- DecodeUtf8
def sarg(x):
    return x[1] if x[0] == 'str' else b'' if x[0] == 'brace' else x[2][0][1]
def dec(l):
    m = re.match(r'    (\w+)(\(.*\));', l); a = P(tokenize(m.group(2))); a.get(); a = a.args(')')
    f = m.group(1); s = sarg(a[0]); back = f.endswith('Prev'); it = s[::-1] if back else s
    L = lstr(s) + ('.reverse' if back else '')
    if back: L = '(%s)' % L
    R = lambda k: '(%s)' % (lstr(s[:len(s)-k]) + '.reverse') if back else lstr(s[k:])
    if f.startswith('testSkip'):
        k = a[1][1]; r = '(%s, %s)' % ('true' if k else 'false', R(k))
        return '%s %s = %s' % ('skipPrev' if back else 'skipNext', L, '.ok ' + r if back else r)
    fn_ = 'decodePrev' if back else 'decodeNext'
    if f.startswith('testInvalid'):
        if back and s == b'\xFF\xA0\x80\x80\x80\x80\x80\x80': return '%s %s = .error .ub' % (fn_, L)
        return '%s %s = .ok (INVALID_CHAR, %s)' % (fn_, L, R(0))
    k = a[2][1] if len(a) > 2 else len(s)
    return '%s %s = .ok (0x%X, %s)' % (fn_, L, a[1][1], R(k))
ex = seqtest('test_DecodeUtf8.cpp', r'    test(Valid|Invalid|Skip)(Next|Prev)\(', dec)
cs = [0xC6, 0x2039, 0xE7, 0xFB01, 0x221A, 0x2248, 0x42]
b32 = lambda x: lstr(''.join(map(chr, x)).encode())
rm = []; pop = []; rml = []; popl = []
for i in range(8):
    t = 'test_DecodeUtf8.cpp'
    if i < 7:
        rm.append(('removeUtf8Codepoint %s = (true, %s)' % (b32(cs[i:]), b32(cs[i+1:])), t + ':%d' % (206+2*i)))
        pop.append(('popUtf8Codepoint %s = .ok (some 0x%X, %s)' % (b32(cs[i:]), cs[i], b32(cs[i+1:])), t + ':%d' % (227+2*i)))
        rml.append(('removeLastUtf8Codepoint %s = .ok (true, %s)' % (b32(cs[:7-i]), b32(cs[:6-i])), t + ':%d' % (248+2*i)))
        popl.append(('popLastUtf8Codepoint %s = .ok (some 0x%X, %s)' % (b32(cs[:7-i]), cs[6-i], b32(cs[:6-i])), t + ':%d' % (269+2*i)))
    else:
        rm.append(('removeUtf8Codepoint [] = (false, [])', t + ':220')); pop.append(('popUtf8Codepoint [] = .ok (none, [])', t + ':241'))
        rml.append(('removeLastUtf8Codepoint [] = .ok (false, [])', t + ':262')); popl.append(('popLastUtf8Codepoint [] = .ok (none, [])', t + ':283'))
total += len(ex) + 32; print('Decode', len(ex) + 32)
g = [('decode_next, decode_prev, skip_next, skip_prev', ex), ('remove_utf8_codepoint', rm), ('pop_utf8_codepoint', pop),
     ('remove_last_utf8_codepoint', rml), ('pop_last_utf8_codepoint', popl)]
write('UpstreamDecode', ['Utf8'], 'test_DecodeUtf8.cpp',
  '''One example differs from its test: decode_prev of FF A0 80 80 80 80 80 80 shifts a 32-bit number by 36 bits, which is undefined
behaviour (C06); the test expects what common compilers make of it.\n''', emit(g))
# --- Unescape
g, n, sk = translate('test_Unescape.cpp', skip=('Test find_first_escaped_character',))
g = [(t, e) for t, e in g if not t.startswith('unescape_next')]
n = sum(len(e) for _, e in g)
s = rb'Foo \a \x12FG \uAbcDE\\\10'
ff = []; o = 0
for i, w in enumerate([rb'\a', rb'\x12F', rb'\uAbcD', rb'\\', rb'\10']):
    p = s.index(w, o); ff.append(('(findFirstEscapedChar %s %d >>= fun sub => substr %s sub.offset sub.length) = .ok %s' % (lstr(s), o, lstr(s), lstr(w)), 'test_Unescape.cpp:%d' % (19 + 2*i))); o = p + len(w)
g.append(('Test find_first_escaped_character', ff))
un = []
def NX(s, r, t): return '(unescapeNext %s).result = %s ∧ (unescapeNext %s).str = %s' % (s, r, s, t)
def steps(s, seq, line):
    for (k, v) in seq:
        un.append((NX(lstr(s), '.ok (some 0x%X)' % v, lstr(s[k:])), 'test_Unescape.cpp:%d' % line)); s = s[k:]
    return s
steps(rb'\a\b\f\n\r\t\v\0', [(2, 7), (2, 8), (2, 12), (2, 10), (2, 13), (2, 9), (2, 11), (2, 0)], 55)
un.append((NX('[]', '.ok none', '[]'), 'test_Unescape.cpp:88'))
steps(rb'\40\3771\0', [(3, 0o40), (4, 0o377), (1, 0x31), (2, 0)], 93)
steps(rb'\uD800\uDC00', [(12, 0x10000)], 113)
steps('ÆØ'.encode(), [(2, 0xC6), (2, 0xD8)], 122)
un.append((NX('[0xC0, 0x40]', '.error .ystring', '[0xC0, 0x40]'), 'test_Unescape.cpp:135'))
un.append((NX(lstr(rb'\x\a'), '.error .ystring', lstr(rb'\x\a')), 'test_Unescape.cpp:141'))
r = steps(b'\\\n\\\nF\\\n', [(5, 0x46)], 148)
un.append((NX(lstr(r), '.ok none', '[]'), 'test_Unescape.cpp:152'))
g.append(('unescape_next', un)); total += n + len(ff) + len(un); print('Unescape', n + len(ff) + len(un), sk)
write('UpstreamUnescape', ['Unescape'], 'test_Unescape.cpp', '', emit(g))
print('total', total)
