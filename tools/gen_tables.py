#!/usr/bin/env python3
"""Generates the Lean modules that hold the constant tables.

  Verif/Model/Tables/*.lean   literal copies of the tables in /repo/src/Ystring/*Tables.hpp
  Verif/Spec/UnicodeData/*.lean  data of /repo/data/unicode/UnicodeData16.0.0.txt

Nothing is interpreted except that consecutive UnicodeData lines with equal general category (or equal
combining class) are merged into one range.  Usage: gen_tables.py [repo] [verif/lean/Verif]
"""
import os, re, sys

REPO = sys.argv[1] if len(sys.argv) > 1 else '/repo'
OUT = sys.argv[2] if len(sys.argv) > 2 else '/verif/lean/Verif'
SRC = REPO + '/src/Ystring/'
CHUNK = 200


def body(fname, decl):
    """Text between the braces of `decl[] = { ... };` and its line range."""
    text = open(SRC + fname, encoding='utf-8').read()
    i = re.search(re.escape(decl) + r'\[\]\s*=', text).start()
    j = text.index('};', i)
    a = text.count('\n', 0, i) + 1
    b = text.count('\n', 0, j) + 1
    return text[text.index('{', i):j], a, b


def numbers(s):
    return [int(x, 16) for x in re.findall(r'0x[0-9A-Fa-f]+', s)]


def emit(path, module_doc, tables):
    """tables: list of (name, doc, lean element type, list of rendered elements)"""
    out = ['/- ' + module_doc, '   Generated by tools/gen_tables.py; do not edit. -/', 'namespace Ystring', '']
    for name, doc, ty, elems in tables:
        parts = []
        for k in range(0, max(len(elems), 1), CHUNK):
            part = f'{name}_{k // CHUNK}'
            parts.append(part)
            out.append(f'/-- {doc} (part {k // CHUNK}) -/')
            out.append(f'def {part} : List {ty} := [')
            chunk = elems[k:k + CHUNK]
            per = 8 if ty == 'Nat' else 4
            lines = [', '.join(chunk[q:q + per]) for q in range(0, len(chunk), per)]
            out.append('  ' + ',\n  '.join(lines) + ']')
            out.append('')
        out.append(f'/-- {doc} ({len(elems)} entries) -/')
        out.append(f'def {name} : List {ty} :=\n  ' + ' ++ ('.join(parts) + ')' * (len(parts) - 1))
        out.append('')
    out.append('end Ystring')
    os.makedirs(os.path.dirname(path), exist_ok=True)
    open(path, 'w').write('\n'.join(out) + '\n')


hexn = lambda n: '0x%X' % n
tup = lambda t: '(' + ', '.join(hexn(x) for x in t) + ')'

# --- model tables ---------------------------------------------------------------------------------
t, a, b = body('CharClassTables.hpp', 'ASCII_CHAR_CLASSES')
asc = numbers(t)
t2, a2, b2 = body('CharClassTables.hpp', 'COMPLETE_CHAR_CLASSES')
com = numbers(t2)
emit(OUT + '/Model/Tables/CharClass.lean', 'src/Ystring/CharClassTables.hpp', [
    ('ASCII_CHAR_CLASSES', f'src/Ystring/CharClassTables.hpp:{a}-{b}', 'Nat', [hexn(x) for x in asc]),
    ('COMPLETE_CHAR_CLASSES', f'src/Ystring/CharClassTables.hpp:{a2}-{b2}', 'Nat', [hexn(x) for x in com])])

for n, f, mod in (('LOWER', 'LowerCaseTables.hpp', 'LowerCase'), ('UPPER', 'UpperCaseTables.hpp', 'UpperCase'),
                  ('TITLE', 'TitleCaseTables.hpp', 'TitleCase')):
    t, a, b = body(f, f'CompactCharMapping COMPACT_{n}_CASE')
    v = numbers(t)
    t2, a2, b2 = body(f, f'CharMapping {n}_CASE')
    w = numbers(t2)
    emit(OUT + f'/Model/Tables/{mod}.lean', 'src/Ystring/' + f, [
        (f'COMPACT_{n}_CASE', f'src/Ystring/{f}:{a}-{b}: (segment, offset, affected, ignorable)', '(Nat × Nat × Nat × Nat)',
         [tup(v[i:i + 4]) for i in range(0, len(v), 4)]),
        (f'{n}_CASE', f'src/Ystring/{f}:{a2}-{b2}: (from_codepoint, to_codepoint)', '(Nat × Nat)',
         [tup(w[i:i + 2]) for i in range(0, len(w), 2)])])

t, a, b = body('NormalizationTables.hpp', 'TO_DECOMPOSED')
t2, a2, b2 = body('NormalizationTables.hpp', 'TO_COMPOSED')
emit(OUT + '/Model/Tables/Normalization.lean', 'src/Ystring/NormalizationTables.hpp', [
    ('TO_DECOMPOSED', f'src/Ystring/NormalizationTables.hpp:{a}-{b}', 'Nat', [hexn(x) for x in numbers(t)]),
    ('TO_COMPOSED', f'src/Ystring/NormalizationTables.hpp:{a2}-{b2}', 'Nat', [hexn(x) for x in numbers(t2)])])

# --- Unicode data ---------------------------------------------------------------------------------
CATS = ['Lu', 'Ll', 'Lt', 'Lm', 'Lo', 'Mn', 'Mc', 'Me', 'Nd', 'Nl', 'No', 'Pc', 'Pd', 'Ps', 'Pe', 'Pi', 'Pf', 'Po',
        'Sm', 'Sc', 'Sk', 'So', 'Zs', 'Zl', 'Zp', 'Cc', 'Cf', 'Cs', 'Co', 'Cn']
ranges = []       # [first, last, cat, kind]; kind 0: own lines, merged; kind 1: a First>/Last> pair
upper, lower, title, decomp, ccc = [], [], [], [], []
first = None
for line in open(REPO + '/data/unicode/UnicodeData16.0.0.txt', encoding='utf-8'):
    p = line.rstrip('\n').split(';')
    if len(p) != 15:
        continue
    c = int(p[0], 16)
    if p[1].endswith(', First>'):
        first = c
    elif p[1].endswith(', Last>'):
        ranges.append([first, c, p[2], 1])
    elif ranges and ranges[-1][1] == c - 1 and ranges[-1][2] == p[2] and ranges[-1][3] == 0:
        ranges[-1][1] = c
    else:
        ranges.append([c, c, p[2], 0])
    if p[3] != '0':
        assert not p[1].endswith('st>')
        if ccc and ccc[-1][1] == c - 1 and ccc[-1][2] == int(p[3]):
            ccc[-1][1] = c
        else:
            ccc.append([c, c, int(p[3])])
    if p[12]: upper.append((c, int(p[12], 16)))
    if p[13]: lower.append((c, int(p[13], 16)))
    if p[14]: title.append((c, int(p[14], 16)))
    if p[5] and not p[5].startswith('<'):
        decomp.append((c, [int(x, 16) for x in p[5].split()]))
U = 'data/unicode/UnicodeData16.0.0.txt'
num = {c: i for i, c in enumerate(CATS)}
emit(OUT + '/Spec/UnicodeData/Categories.lean',
     U + """: general categories.  Entries are (first, last, category, kind) in file order.
   category: position in the list
     """ + ' '.join(CATS) + """
   kind: 0 if every code point of the range has a line of its own in the file (runs of lines with equal
   category are merged), 1 if the range is given by a "First>" and a "Last>" line.""", [
    ('Spec.UD_RANGES', U + ': (first, last, category, kind)',
     '(Nat × Nat × Nat × Nat)', ['(0x%X, 0x%X, %d, %d)' % (r[0], r[1], num[r[2]], r[3]) for r in ranges])])
emit(OUT + '/Spec/UnicodeData/CaseMappings.lean', U + ': simple case mappings', [
    ('Spec.UD_UPPER', U + ', field 12', '(Nat × Nat)', [tup(x) for x in upper]),
    ('Spec.UD_LOWER', U + ', field 13', '(Nat × Nat)', [tup(x) for x in lower]),
    ('Spec.UD_TITLE', U + ', field 14', '(Nat × Nat)', [tup(x) for x in title])])
emit(OUT + '/Spec/UnicodeData/Decompositions.lean', U + ': canonical decompositions, field 5', [
    ('Spec.UD_PAIRS', U + ': canonical decompositions into two code points', '(Nat × Nat × Nat)',
     [tup([c] + d) for c, d in decomp if len(d) == 2]),
    ('Spec.UD_SINGLETONS', U + ': canonical decompositions into one code point', '(Nat × Nat)',
     [tup([c] + d) for c, d in decomp if len(d) == 1])])
assert all(len(d) in (1, 2) for _, d in decomp)
emit(OUT + '/Spec/UnicodeData/CombiningClasses.lean', U + ': canonical combining classes, field 3', [
    ('Spec.UD_CCC', U + ': (first, last, class); runs of lines with the same class other than 0 are merged',
     '(Nat × Nat × Nat)', ['(0x%X, 0x%X, %d)' % tuple(x) for x in ccc])])
