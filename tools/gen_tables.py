#!/usr/bin/env python3
"""Transcribes intl_pluralrules/src/rules.rs, intl_pluralrules/cldr_data/*.json and the generator's test fixtures to Lean.

  RulesText.lean    rules.rs, verbatim
  RulesTable.lean   its tables as language identifiers and expressions
  CldrText.lean     the two shipped CLDR files, verbatim
  CldrData.lean     the same as lists of keys and texts
  Fixtures.lean     the three input files and the expected outputs of make_pluralrules/tests, verbatim

That RulesTable is what RulesText says, and CldrData what CldrText says, are Lean theorems.
"""
import json, re, sys
REPO = '/repo'
OUT = '/verif/lean/Verif'

def lit(s):
    return 'c!"' + s.replace('\\', '\\\\').replace('"', '\\"').replace('\n', '\\n').replace('\t', '\\t') + '"'

# ---------------------------------------------------------------- rules.rs
src = open(f'{REPO}/intl_pluralrules/src/rules.rs', encoding='utf-8').read()

def table(name):
    m = re.search(r'pub const ' + name + r': &\[\(LanguageIdentifier, PluralRule\)\] = &\[\n', src)
    start = m.end()
    end = src.index('\n];', start) + 1
    body = src[start:end]
    entries, depth, cur = [], 0, ''
    for ch in body:
        if depth == 0 and ch in ' \n,':
            continue
        cur += ch
        if ch in '([{': depth += 1
        if ch in ')]}': depth -= 1
        if depth == 0 and cur:
            entries.append(cur); cur = ''
    # nothing but blanks, line ends and commas between entries
    assert ''.join(e for e in entries).replace(' ', '').replace('\n', '') == \
        re.sub(r'\),\(langid', ')(langid', body.replace(' ', '').replace('\n', ''))[:-1]
    return entries

TOK = re.compile(r'\s*(\.\.=|==|!=|<=|&&|\|\||::|[A-Za-z_][A-Za-z0-9_]*|[0-9]+(?:\.0|u64|u32)?(?!\w)|.)')
def toks(s):
    out, p = [], 0
    s = s.strip()
    while p < len(s):
        m = TOK.match(s, p); out.append(m.group(1)); p = m.end()
    return out

class Ps:
    def __init__(s, t): s.t, s.p = t, 0
    def peek(s, k=0): return s.t[s.p+k] if s.p+k < len(s.t) else None
    def eat(s, x):
        assert s.peek() == x, (s.peek(), x, s.t[s.p-5:s.p+5]); s.p += 1
    def next(s): s.p += 1; return s.t[s.p-1]
    def orr(s):
        a = s.andd()
        while s.peek() == '||': s.next(); a = ('or', a, s.andd())
        return a
    def andd(s):
        a = s.cmp()
        while s.peek() == '&&': s.next(); a = ('and', a, s.cmp())
        return a
    def cmp(s):
        a = s.rem()
        if s.peek() in ('==', '!=', '<=', '>'):
            o = {'==': 'eq', '!=': 'ne', '<=': 'le', '>': 'gt'}[s.next()]
            a = ('cmp', o, a, s.rem())
        return a
    def rem(s):
        a = s.un()
        while s.peek() == '%': s.next(); a = ('rem', a, s.un())
        return a
    def un(s):
        if s.peek() == '!': s.next(); return ('not', s.un())
        return s.prim()
    def prim(s):
        t = s.peek()
        if t == 'po':
            s.next(); s.eat('.'); return ('field', s.next())
        if t[0].isdigit():
            s.next()
            return ('flt', int(t[:-2])) if '.' in t else ('int', int(t))
        if t == '(' and s.peek(2) == '..=':
            s.next(); lo = int(s.next()); s.eat('..='); hi = int(s.next()); s.eat(')')
            s.eat('.'); s.eat('contains'); s.eat('('); s.eat('&'); a = s.un(); s.eat(')')
            return ('contains', lo, hi, a)
        s.eat('('); a = s.orr(); s.eat(')'); return a
    def cat(s):
        s.eat('PluralCategory'); s.eat('::'); return s.next()
    def opt(s, kind):
        if s.peek() == 'None': s.next(); return None
        s.eat('Some'); s.eat('('); r = s.raw(kind); s.eat(')'); return r
    def raw(s, kind):
        s.eat('subtags'); s.eat('::'); s.eat(kind); s.eat('::'); s.eat('from_raw_unchecked'); s.eat('(')
        n = int(s.next()[:-3]); s.eat(')')
        return n.to_bytes(8, 'little').rstrip(b'\0').decode('ascii')
    def entry(s):
        s.eat('('); s.eat('langid'); s.eat('!'); s.eat('(')
        l = s.raw('Language'); s.eat(','); sc = s.opt('Script'); s.eat(','); rg = s.opt('Region'); s.eat(')'); s.eat(',')
        s.eat('|'); s.eat('po'); s.eat('|')
        arms = []
        if s.peek() == '{':
            s.eat('{')
            while True:
                s.eat('if'); e = s.orr(); s.eat('{'); c = s.cat(); s.eat('}'); s.eat('else')
                arms.append((e, c))
                if s.peek() == '{':
                    s.eat('{'); last = s.cat(); s.eat('}'); break
            s.eat('}')
        else:
            last = s.cat()
        s.eat(','); s.eat(')'); assert s.p == len(s.t)
        return (l, sc, rg), (tuple(arms), last)

def sh(e):
    k = e[0]
    if k in ('int', 'flt'): return f'.{k} {e[1]}'
    if k == 'field': return f'.field .{e[1].upper()}'
    if k == 'cmp': return f'.cmp .{e[1]} ({sh(e[2])}) ({sh(e[3])})'
    if k == 'not': return f'.not ({sh(e[1])})'
    if k == 'contains': return f'.contains {e[1]} {e[2]} ({sh(e[3])})'
    return f'.{k} ({sh(e[1])}) ({sh(e[2])})'

def optl(x): return 'none' if x is None else f'(some {lit(x)})'

def verbatim(module, title, files):
    with open(f'{OUT}/{module}.lean', 'w', encoding='utf-8') as f:
        f.write(f'import Verif.Chars\n\n/-!\n# {title}\n\nWritten by tools/gen_tables.py, in parts of 800 characters.\n-/\n\n'
                f'namespace Verif.{module}\nopen Verif\n\n')
        for nm, path, strip in files:
            s = open(f'{REPO}/{path}', encoding='utf-8', newline='').read()
            if strip: s = s.strip()
            parts = [s[i:i+800] for i in range(0, len(s), 800)]
            for k, x in enumerate(parts):
                f.write(f'/-- {path}, part {k}. -/\ndef {nm}_{k} : Str := {lit(x)}\n\n')
            f.write(f'/-- {path}. -/\ndef {nm} : Str := List.flatten [\n')
            rows = [', '.join(f'{nm}_{k}' for k in range(a, min(a + 8, len(parts)))) for a in range(0, len(parts), 8)]
            f.write('  ' + ',\n  '.join(rows) + ']\n\n')
        f.write(f'end Verif.{module}\n')

def main():
    card, ordi = table('PRS_CARDINAL'), table('PRS_ORDINAL')
    verbatim('RulesText', '`intl_pluralrules/src/rules.rs`, verbatim', [('rules', 'intl_pluralrules/src/rules.rs', False)])
    verbatim('CldrText', '`intl_pluralrules/cldr_data/*.json`, verbatim', [
        ('cardinals', 'intl_pluralrules/cldr_data/cldr_pluralrules_cardinals.json', False),
        ('ordinals', 'intl_pluralrules/cldr_data/cldr_pluralrules_ordinals.json', False)])
    fx = 'make_pluralrules/tests/fixtures/cldr_pluralrules_'
    verbatim('Fixtures', '`make_pluralrules/tests/fixtures`: inputs and expected outputs of the tests, trimmed as test.rs:11 does', [
        ('cardinals33', fx + 'cardinals_33.json', True), ('ordinals33', fx + 'ordinals_33.json', True),
        ('within', fx + 'within_test.json', True), ('out33', fx + '33.rs', True), ('outWithin', fx + 'within_test.rs', True)])
    with open(f'{OUT}/RulesTable.lean', 'w', encoding='utf-8') as f:
        f.write('import Verif.Rust\nimport Verif.LangId\n\n/-!\n# The two tables of `intl_pluralrules/src/rules.rs`\n\n'
                'Written by tools/gen_tables.py.  Locales with the same function share a definition.  `Verif.Props.Tables` proves that the text of\n'
                'every entry reads as the entry given here.\n-/\n\nnamespace Verif.RulesTable\nopen Verif Rust\n\n')
        for nm, es, loc in (('cardinal', card, '16-2449'), ('ordinal', ordi, '2450-3187')):
            parsed = [Ps(toks(e)).entry() for e in es]
            ids = {}
            for _, c in parsed:
                if c not in ids: ids[c] = f'{nm}Fn{len(ids)}'
            for c, n in ids.items():
                who = ' '.join((l if not r else l + '-' + r) for (l, s, r), c2 in parsed if c2 == c)
                f.write(f'/-- rules.rs:{loc}, the function of: {who}. -/\ndef {n} : Closure where\n  arms := [' +
                        ',\n    '.join(f'({sh(e)}, .{k})' for e, k in c[0]) + f']\n  last := .{c[1]}\n\n')
            f.write(f'/-- rules.rs:{loc} (`PRS_{nm.upper()}`). -/\ndef {nm} : List (LangId × Closure) := [\n' +
                    ',\n'.join(f'  (⟨{optl(l)}, {optl(s)}, {optl(r)}, none⟩, {ids[c]})' for (l, s, r), c in parsed) + ']\n\n')
            f.write(f'/-- The distinct functions of `PRS_{nm.upper()}`. -/\ndef {nm}Fns : List Closure := [' + ', '.join(ids.values()) + ']\n\n')
        v = re.search(r'CLDR_VERSION: usize = (\d+);', src).group(1)
        f.write(f'/-- rules.rs:10 (`CLDR_VERSION`). -/\ndef cldrVersion : Nat := {v}\n\nend Verif.RulesTable\n')

    def typeobj(f, name, obj, where):
        """One `def` per rule set; locales with the same rules share it."""
        sets = {}
        for loc, r in obj.items():
            sets.setdefault(tuple(r.items()), []).append(loc)
        nm = {}
        for i, (k, locs) in enumerate(sets.items()):
            nm[k] = f'{name}Rules{i}'
            f.write(f'/-- {where}: {" ".join(locs)}. -/\ndef {nm[k]} : RuleObj := [\n' +
                    ',\n'.join(f'  ({lit(a)}, {lit(b)})' for a, b in k) + ']\n\n')
        f.write(f'/-- {where}, in file order. -/\ndef {name} : TypeObj := [\n' +
                ',\n'.join(f'  ({lit(loc)}, {nm[tuple(r.items())]})' for loc, r in obj.items()) + ']\n\n')
        return list(nm.values())

    with open(f'{OUT}/CldrData.lean', 'w', encoding='utf-8') as f:
        f.write('import Verif.Generate\n\n/-!\n# `intl_pluralrules/cldr_data/*.json`\n\nWritten by tools/gen_tables.py.  Locales with the same rules share a definition.\n-/\n\n'
                'namespace Verif.CldrData\nopen Verif Generate\n\n')
        for kind in ('cardinal', 'ordinal'):
            p = f'intl_pluralrules/cldr_data/cldr_pluralrules_{kind}s.json'
            j = json.load(open(f'{REPO}/{p}', encoding='utf-8'))
            names = typeobj(f, kind, j['supplemental'][f'plurals-type-{kind}'], p)
            f.write(f'/-- The distinct rule sets of {p}. -/\ndef {kind}RuleSets : List RuleObj := [' + ', '.join(names) + ']\n\n')
            v = j['supplemental']['version']['_cldrVersion']
            co, oo = ('some cardinal', 'none') if kind == 'cardinal' else ('none', 'some ordinal')
            f.write(f'/-- {p}, the fields that are used. -/\ndef {kind}Resource : Resource where\n  cldrVersion := {lit(v)}\n  cardinal := {co}\n  ordinal := {oo}\n\n')
        f.write('end Verif.CldrData\n')


main()
