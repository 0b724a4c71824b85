#!/usr/bin/env python3
"""Translate /repo/test/test_reference.py into Lean, assertion by assertion.

The output is in lean/Verif/Tests: one definition for each test method, which runs the method's statements on the model and lists
the lines of the assertions that do not hold, and one theorem for each saying that there are none. It is spread over several
modules because checking it takes the kernel some memory.
The tests are only read as text; nothing of the project is run.
"""
import ast, sys

SRC = '/repo/test/test_reference.py'
OUT = sys.argv[1] if len(sys.argv) > 1 else '/verif/lean/Verif/Tests'

# The first test of every module.
MODULES = {'test_bible_books': 'Verses', 'test_bible_ranges': 'Ranges', 'test_range_union': 'RangeOperations',
           'test_bible_range_to_string': 'RangeStrings', 'test_bible_range_list': 'Lists',
           'test_bible_range_list_to_string': 'ListStrings'}

EXC = {'ValueError': '.valueError', 'InvalidReferenceError': '.invalidReference',
       'MultibookRangeNotAllowedError': '.multibookRange', 'TypeError': '.typeError'}
CMP = {ast.Lt: '.lt', ast.LtE: '.le', ast.Gt: '.gt', ast.GtE: '.ge'}
WRAP = {'none': '.none', 'int': '.int {}', 'str': '.str {}', 'book': '.book {}', 'verse': '.verse {}', 'range': '.range {}',
        'list': '.list {}'}
NS = {'book': 'BibleBook', 'verse': 'BibleVerse', 'range': 'BibleRange', 'list': 'RangeList'}


class Skip(Exception):
    pass


def lit(s):
    return '"' + s.replace('\\', '\\\\').replace('"', '\\"') + '".toList'


def exc(node):
    name = node.attr if isinstance(node, ast.Attribute) else node.id
    return EXC[name]


class Test:
    def __init__(self):
        self.types = {}

    def flag(self, node):
        """A value given as `flags`."""
        if isinstance(node, ast.Attribute) and isinstance(node.value, ast.Name) and node.value.id == 'BibleFlag':
            return '.none' if node.attr == 'NONE' else '.' + node.attr
        raise Skip(ast.dump(node))

    def flags(self, kw):
        return '(some ' + self.flag(kw['flags']) + ')' if 'flags' in kw else 'none'

    def boolean(self, kw, name, default=False):
        return str(kw[name].value if name in kw else default).lower()

    def value(self, node):
        """An argument as a `PyVal`."""
        if isinstance(node, ast.Constant):
            if node.value is None:
                return '.none'
            if isinstance(node.value, bool):
                return '.other'
        if isinstance(node, ast.List):
            return '(.seq true [' + ', '.join(self.value(x) for x in node.elts) + '])'
        code, ty = self.expr(node)
        return '(' + WRAP[ty].format('(' + code + ')') + ')'

    def values(self, nodes):
        return '[' + ', '.join(self.value(x) for x in nodes) + ']'

    def call(self, code, ty):
        return '← ' + code, ty

    def lift(self, code, ty):
        return '← PM.lift (' + code + ')', ty

    def opts(self, kw):
        return '⟨%s, %s, %s, %s, %s⟩' % (self.boolean(kw, 'abbrev'), self.boolean(kw, 'alt_sep'), self.boolean(kw, 'nospace'),
                                         self.boolean(kw, 'preserve_groups', True), self.boolean(kw, 'force_start_verses'))

    def to_str(self, obj, ty, kw):
        if ty == 'verse':
            parts = '.full'
            if 'verse_parts' in kw:
                parts = '.' + kw['verse_parts'].attr
            return 'BibleVerse.str uni e.data %s %s (%s)' % (self.opts(kw), parts, obj), 'str'
        return self.lift('%s.str uni e %s %s (%s)' % (NS[ty], self.opts(kw), self.flags(kw), obj), 'str')

    def method(self, node):
        f = node.func
        kw = {k.arg: k.value for k in node.keywords}
        args = node.args
        fl = self.flags(kw)
        if isinstance(f.value, ast.Name) and f.value.id == 'BibleBook' and f.attr == 'from_str':
            return 'BibleBook.fromStr uni e.data ' + lit(args[0].value), 'optbook'
        if isinstance(f.value, ast.Name) and f.value.id == 'BibleRange' and f.attr == 'whole_bible':
            return self.lift('BibleRange.wholeBible e ' + fl, 'range')
        obj, ty = self.expr(f.value)
        o = '(' + obj + ')'
        m = f.attr
        if m == 'str':
            return self.to_str(obj, ty, kw)
        if ty == 'book':
            if m == 'verse_count':
                return self.lift('BibleBook.verseCount e %s none' % o, 'int')
            if m == 'chap_count':
                return 'BibleBook.chapCount e.data ' + o, 'int'
            if m == 'range':
                return self.lift('BibleBook.range e %s none' % o, 'range')
            if m == 'chap_range':
                return self.lift('BibleBook.chapRange e %s %d none' % (o, args[0].value), 'range')
            if m == 'chap_ranges':
                return self.lift('BibleBook.chapRanges e %s %s none fuel' % (o, self.boolean(kw, 'regroup', True)), 'list')
        if ty == 'verse':
            if m in ('verse_0_to_1', 'verse_1_to_0'):
                return self.lift('BibleVerse.%s e %s' % (m.replace('_0_to_1', '0to1').replace('_1_to_0', '1to0'), o), 'verse')
            if m == 'is_first_in_chap':
                return self.lift('BibleVerse.isFirstInChap e %s none none' % o, 'bool')
            if m == 'is_last_in_chap':
                return self.lift('BibleVerse.isLastInChap e %s none' % o, 'bool')
            if m == 'is_first_in_book':
                return self.lift('BibleVerse.isFirstInBook e %s none none' % o, 'bool')
            if m == 'is_last_in_book':
                return self.lift('BibleVerse.isLastInBook e %s none' % o, 'bool')
            if m in ('chap_range', 'book_range'):
                return self.lift('BibleVerse.%sRange e %s none' % (m[:4], o), 'range')
            if m == 'add':
                return self.lift('BibleVerse.add e %s %d %s' % (o, args[0].value, fl), 'optverse')
            if m == 'subtract':
                return self.minus(o, args[0], fl)
        if ty == 'range':
            if m in ('verse_0_to_1', 'verse_1_to_0'):
                return self.lift('BibleRange.%s e %s' % (m.replace('_0_to_1', '0to1').replace('_1_to_0', '1to0'), o), 'range')
            if m in ('chap_range', 'book_range'):
                return self.lift('BibleRange.%sRange e %s %s' % (m[:4], o, fl), 'range')
            if m == 'verse_count':
                return self.lift('BibleRange.verseCount e ' + o, 'int')
            if m in ('chap_count', 'book_count'):
                return self.lift('BibleRange.%sCount e %s %s' % (m[:4], o, self.boolean(kw, 'whole')), 'int')
            if m == 'split':
                n = '(some %d)' % kw['num_verses'].value if 'num_verses' in kw else 'none'
                return self.lift('BibleRange.split e %s %s %s %s true none fuel'
                                 % (o, self.boolean(kw, 'by_book'), self.boolean(kw, 'by_chap'), n), 'list')
            if m in ('is_disjoint', 'surrounds'):
                return self.lift('BibleRange.%sV e %s %s' % ('isDisjoint' if m == 'is_disjoint' else m, o, self.value(args[0])), 'bool')
            if m == 'is_adjacent':
                return self.lift('BibleRange.isAdjacentV e %s %s none' % (o, self.value(args[0])), 'bool')
        if ty == 'list':
            if m == 'range':
                return self.lift('RangeList.range e ' + o, 'range')
            if m in ('chap_range', 'book_range'):
                return self.lift('RangeList.%sRange e %s %s' % (m[:4], o, fl), 'range')
            if m == 'verse_count':
                return self.lift('RangeList.verseCount e ' + o, 'int')
            if m in ('chap_count', 'book_count'):
                return self.lift('RangeList.%sCount e %s %s' % (m[:4], o, self.boolean(kw, 'whole')), 'int')
            if m == 'is_disjoint':
                return self.lift('RangeList.isDisjointV e %s %s' % (o, self.value(args[0])), 'bool')
        raise Skip('method %s of %s' % (m, ty))

    def minus(self, o, node, fl):
        b, bt = self.expr(node)
        if bt == 'int':
            return self.lift('BibleVerse.sub e %s %s %s' % (o, b, fl), 'optverse')
        return self.lift('BibleVerse.subVerse e %s (%s)' % (o, b), 'int')

    def expr(self, node):
        if isinstance(node, ast.Constant):
            if isinstance(node.value, str):
                return lit(node.value), 'str'
            if isinstance(node.value, int):
                return str(node.value), 'int'
        if isinstance(node, ast.UnaryOp) and isinstance(node.op, ast.USub):
            return '(-%d)' % node.operand.value, 'int'
        if isinstance(node, ast.Name) and node.id in self.types:
            return node.id, self.types[node.id]
        if isinstance(node, ast.Attribute):
            if isinstance(node.value, ast.Name) and node.value.id == 'BibleBook':
                return '.' + node.attr + ' : BibleBook', 'book'
            if node.attr == 'value' and isinstance(node.value, ast.Attribute):      # l._first.value, l._last.value
                obj, _ = self.expr(node.value.value)
                rev = '.reverse' if node.value.attr == '_last' else ''
                return '← item (%s).flatten%s 0' % (obj, rev), 'range'
            obj, ty = self.expr(node.value)
            if ty == 'book' and node.attr == 'title':
                return '← title e (%s)' % obj, 'str'
            if ty == 'list' and node.attr == 'groups':
                return obj, 'groups'
        if isinstance(node, ast.Subscript):
            obj, ty = self.expr(node.value)
            return '← item (%s) %d' % (obj, node.slice.value), {'groups': 'group', 'group': 'range'}[ty]
        if isinstance(node, ast.List):
            items = [self.expr(x) for x in node.elts]
            return '[' + ', '.join('(' + c + ')' for c, _ in items) + ']', items[0][1] + 's'
        if isinstance(node, ast.Compare):
            a, at = self.expr(node.left)
            op = node.ops[0]
            if isinstance(op, ast.In):
                b, bt = self.expr(node.comparators[0])
                if bt == 'range':
                    return self.lift('BibleRange.containsV e (%s) %s' % (b, self.value(node.left)), 'bool')
                return self.lift('RangeList.containsV e (%s) %s none' % (b, self.value(node.left)), 'bool')
            b, bt = self.expr(node.comparators[0])
            if isinstance(op, ast.Eq):
                return 'decide ((%s) = (%s))' % (a, b), 'bool'
            return self.lift('%s.cmp e.data %s (%s) (%s)' % (NS[at], CMP[type(op)], a, b), 'bool')
        if isinstance(node, ast.BinOp):
            a, at = self.expr(node.left)
            if at == 'str':
                b, _ = self.expr(node.right)
                return '(%s) ++ (%s)' % (a, b), 'str'
            if at == 'verse' and isinstance(node.op, ast.Add):
                return self.lift('BibleVerse.plus e (%s) %s' % (a, self.value(node.right)), 'optverse')
            if at == 'verse':
                return self.minus('(' + a + ')', node.right, 'none')
            m = {ast.BitOr: 'union', ast.BitAnd: 'intersection', ast.Sub: 'difference', ast.BitXor: 'symDifference'}[type(node.op)]
            fuel = ' fuel' if at == 'list' and m in ('difference', 'symDifference') else ''
            return self.lift('%s.%sV e (%s) %s none%s' % (NS[at], m, a, self.value(node.right), fuel), 'list')
        if isinstance(node, ast.Call):
            kw = {k.arg: k.value for k in node.keywords}
            f = node.func
            if isinstance(f, ast.Name):
                if f.id == 'BibleVerse':
                    return self.call('BibleVerse.ofValues uni e %s %s' % (self.values(node.args), self.flags(kw)), 'verse')
                if f.id == 'BibleRange':
                    start = self.value(kw['start']) if 'start' in kw else '.none'
                    stop = self.value(kw['end']) if 'end' in kw else '.none'
                    return self.call('mkRange e %s %s %s %s' % (self.values(node.args), start, stop, self.flags(kw)), 'range')
                if f.id == 'BibleRangeList':
                    return self.call('RangeList.ofValues uni e %s %s' % (self.values(node.args), self.flags(kw)), 'list')
                if f.id == 'str':
                    obj, ty = self.expr(node.args[0])
                    return self.to_str(obj, ty, {})
                if f.id == 'list':
                    obj, ty = self.expr(node.args[0])
                    return self.lift('BibleRange.iter e (%s)' % obj, 'verses')
                if f.id == 'len':
                    obj, ty = self.expr(node.args[0])
                    return '((%s).length : Int)' % obj, 'int'
            if isinstance(f, ast.Attribute):
                return self.method(node)
        raise Skip(ast.dump(node)[:200])

    def assertion(self, call):
        """The check made by an assertion."""
        name = call.func.attr
        if name in ('assertEqual', 'assertEquals'):
            (a, at), (b, bt) = self.expr(call.args[0]), self.expr(call.args[1])
            if at.startswith('opt') and not bt.startswith('opt'):
                b = 'some (' + b + ')'
            cast = ' : Int' if at == 'int' else ''
            return 'check %d do return decide ((%s) = (%s))' % (call.lineno, a if cast == '' else '(' + a + ')' + cast, b)
        if name == 'assertTrue':
            return 'check %d do return (%s)' % (call.lineno, self.expr(call.args[0])[0])
        if name == 'assertFalse':
            return 'check %d do return !(%s)' % (call.lineno, self.expr(call.args[0])[0])
        if name == 'assertRaises':
            return 'checkRaises %d %s do let _ := (%s)' % (call.lineno, exc(call.args[0]), self.expr(call.args[1].body)[0])
        raise Skip(name)

    def body(self, stmts, indent):
        out = []
        for s in stmts:
            if isinstance(s, ast.Assign):
                t = s.targets[0]
                if isinstance(t, ast.Attribute):    # bibleref.flags = ...
                    if isinstance(s.value, ast.Name):
                        out.append('let e : Env := { e with flags := %s }' % s.value.id)
                    else:
                        out.append('let e : Env := { e with flags := %s }' % self.flag(s.value))
                    continue
                if isinstance(s.value, ast.Attribute) and s.value.attr == 'flags':
                    out.append('let %s := e.flags' % t.id)
                    continue
                code, ty = self.expr(s.value)
                self.types[t.id] = ty
                out.append('let %s := (%s)' % (t.id, code))
                continue
            if isinstance(s, ast.Expr) and isinstance(s.value, ast.Call):
                c = s.value
                obj = c.func.value.id
                if obj == 'self':
                    out.append('let fails := fails ++ (← %s)' % self.assertion(c))
                    continue
                m = c.func.attr
                kw = {k.arg: k.value for k in c.keywords}
                code = {'sort': 'RangeList.sort e %s true' % obj, 'merge': 'RangeList.merge e %s %s' % (obj, self.flags(kw)),
                        'regroup': 'RangeList.regroup e %s %s.flatten' % (self.flags(kw), obj),
                        'verse_0_to_1': 'RangeList.verse0to1 e %s' % obj, 'verse_1_to_0': 'RangeList.verse1to0 e %s' % obj}[m]
                out.append('let %s ← PM.lift (%s)' % (obj, code))
                continue
            if isinstance(s, ast.For):      # for book in BibleBook
                self.types[s.target.id] = 'book'
                out.append('let fails := fails ++ (← forBooks fun %s => do' % s.target.id)
                out.append('  let fails : List Nat := []')
                out += ['  ' + x for x in self.body([x for x in s.body if not isinstance(x, ast.If)], 0)]
                out.append('  return fails)')
                continue
            raise Skip(ast.dump(s)[:200])
        return out


HEAD = '''import Verif.Tests.Basic

/-!
# The tests of test/test_reference.py, run on the model

Written by tools/translate_tests.py, which translates the test methods statement by statement. The numbers are the lines of the
assertions. `BibleBook` as an iterable is the list of its members.
-/

namespace Bibleref.Tests

set_option linter.unusedVariables false

'''


def main():
    tree = ast.parse(open(SRC).read())
    cls = [x for x in tree.body if isinstance(x, ast.ClassDef)][0]
    files = {}
    count = 0
    for f in cls.body:
        if not (isinstance(f, ast.FunctionDef) and f.name.startswith('test')):
            continue
        if f.name in MODULES:
            out = files[MODULES[f.name]] = [HEAD]
        lines = Test().body(f.body, 1)
        count += sum('check' in x for x in lines)
        out.append('/-- `%s` (test/test_reference.py:%d-%d). -/\n' % (f.name, f.lineno, f.end_lineno))
        out.append('def %s : PM (List Nat) := do\n  let e : Env := env\n  let fails : List Nat := []\n' % f.name)
        out += ['  ' + x + '\n' for x in lines]
        out.append('  return fails\n\n')
        out.append('theorem %s_passes : (%s PState.init).1 = .ok [] := by decide +kernel\n\n' % (f.name, f.name))
    for name, out in files.items():
        out.append('end Bibleref.Tests\n')
        open('%s/%s.lean' % (OUT, name), 'w').write(''.join(out))
    print(count, 'assertions')


main()
