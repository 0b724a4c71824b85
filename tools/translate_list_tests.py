#!/usr/bin/env python3
"""Translate /repo/test/test_util.py into Lean, assertion by assertion; see translate_tests.py.

The output is lean/Verif/Tests/GroupedLists.lean. The tests run on the model of linked nodes in memory.
"""
import ast, sys

SRC = '/repo/test/test_util.py'
OUT = sys.argv[1] if len(sys.argv) > 1 else '/verif/lean/Verif/Tests/GroupedLists.lean'
EXC = {'ValueError': '.valueError', 'IndexError': '.indexError', 'GroupViewError': '.groupView'}


class Skip(Exception):
    pass


class Test:
    def __init__(self):
        self.types = {}

    def int(self, node):
        code, ty = self.expr(node)
        if ty != 'int':
            raise Skip(ast.dump(node))
        return '(' + code + ')'

    def ints(self, node):
        return '[' + ', '.join(self.int(x) for x in node.elts) + ']'

    def new_group(self, kw):
        return str(kw['new_group'].value if 'new_group' in kw else False).lower()

    def expr(self, node):
        if isinstance(node, ast.Constant):
            return str(node.value), 'int'
        if isinstance(node, ast.UnaryOp):
            return '-%d' % node.operand.value, 'int'
        if isinstance(node, ast.Name):
            return node.id, self.types[node.id]
        if isinstance(node, ast.BinOp):
            return '%s + %s' % (self.int(node.left), self.int(node.right)), 'int'
        if isinstance(node, ast.List):
            if node.elts and isinstance(node.elts[0], ast.List):
                return '[' + ', '.join(self.ints(x) for x in node.elts) + ']', 'nested'
            return self.ints(node), 'ints'
        if isinstance(node, ast.Attribute):
            obj, ty = self.expr(node.value)
            o = '(' + obj + ')'
            if ty == 'glist' and node.attr == 'groups':
                return obj, 'views'
            if ty == 'glist' and node.attr in ('_first', '_last', '_first_head', '_last_head'):
                return '← HM.read fun h => h.%s %s' % ({'_first': 'first', '_last': 'last', '_first_head': 'firstHead',
                                                     '_last_head': 'lastHead'}[node.attr], o), 'node'
            if ty == 'node' and node.attr == 'value':
                return '← nodeValue ' + o, 'int'
            if ty == 'node' and node.attr == 'next':
                return '← nodeNext ' + o, 'node'
            if ty == 'view' and node.attr == 'group_head':
                return 'some ' + o, 'node'
        if isinstance(node, ast.Subscript):
            obj, ty = self.expr(node.value)
            i = self.int(node.slice)
            if ty == 'glist':
                return '← Heap.getItem (%s) %s' % (obj, i), 'int'
            if ty == 'views':
                return '← Heap.groupAt (%s) %s' % (obj, i), 'view'
            if ty == 'view':
                return '← Heap.viewGet (%s) %s' % (obj, i), 'int'
            if ty == 'heads':
                return '(%s).getD %d 0' % (obj, node.slice.value), 'view'
        if isinstance(node, ast.Compare):
            if isinstance(node.ops[0], ast.In):
                return '← Heap.contains (%s) %s' % (self.expr(node.comparators[0])[0], self.int(node.left)), 'bool'
            a, b = self.expr(node.left), self.expr(node.comparators[0])
            return '← Heap.equals (%s) (%s) true' % (a[0], b[0]), 'bool'
        if isinstance(node, ast.Call):
            f = node.func
            kw = {k.arg: k.value for k in node.keywords}
            args = node.args
            if isinstance(f, ast.Name):
                if f.id == 'GroupedList':
                    if not args:
                        return '← ofItems []', 'glist'
                    code, ty = self.expr(args[0])
                    return '← %s %s' % ('ofNested' if ty == 'nested' else 'ofItems', code), 'glist'
                if f.id == 'list':
                    if isinstance(args[0], ast.Call) and isinstance(args[0].func, ast.Name) and args[0].func.id == 'reversed':
                        return '← Heap.toListReversed (%s)' % self.expr(args[0].args[0])[0], 'ints'
                    code, ty = self.expr(args[0])
                    if ty == 'views':
                        return '← HM.readE (Heap.heads (%s))' % code, 'heads'
                    return '← Heap.toList (%s)' % code, 'ints'
                if f.id == 'len':
                    code, ty = self.expr(args[0])
                    return '← Heap.%s (%s)' % ('groupsLen' if ty == 'views' else 'len', code), 'int'
                if f.id == 'sorted':
                    return '(sorted %s)' % self.expr(args[0])[0], 'ints'
            obj, ty = self.expr(f.value) if not (isinstance(f.value, ast.Name) and f.value.id == 'self') else (None, None)
            o = '(%s)' % obj
            m = f.attr
            if m == 'verify_is_single_group':
                return '← isSingleGroup (%s)' % self.expr(args[0])[0], 'bool'
            if m == '_conform_index':
                return '← Heap.conformIndex %s %s' % (o, self.int(args[0])), 'int'
            if m == '_node_at':
                return '← Heap.nodeAt %s %s' % (o, self.int(args[0])), 'node'
            if m == '_insert_first':
                return '← Heap.insertFirst %s %s' % (o, self.int(args[0])), 'unit'
            if m in ('_insert_before', '_insert_after'):
                return '← Heap.insert%s %s (%s) %s %s' % (m[8:].capitalize(), o, self.expr(args[0])[0], self.int(args[1]),
                                                         self.new_group(kw)), 'unit'
            if m in ('_pop_node', '_pop_after', '_pop_before'):
                name = {'_pop_node': 'Heap.popNode', '_pop_after': 'Heap.popAfter', '_pop_before': 'popBefore'}[m]
                return '← %s %s (%s)' % (name, o, self.expr(args[0])[0]), 'int'
            if m in ('prepend', 'append'):
                return '← Heap.%s %s %s %s' % (m, o, self.int(args[0]), self.new_group(kw)), 'unit'
            if m == 'insert':
                return '← Heap.insert %s %s %s' % (o, self.int(args[0]), self.int(args[1])), 'unit'
            if m == 'insert_group_at':
                return '← Heap.insertGroupAt %s %s' % (o, self.int(args[0])), 'unit'
            if m == 'index':
                b = ['(some %s)' % self.int(x) for x in args[1:]] + ['none', 'none']
                return '← Heap.index %s %s %s %s' % (o, self.int(args[0]), b[0], b[1]), 'int'
            if m == 'count':
                return '← Heap.count %s %s' % (o, self.int(args[0])), 'int'
            if m == 'pop':
                return '← Heap.pop %s %s' % (o, '(some %s)' % self.int(args[0]) if args else 'none'), 'int'
            if m in ('clear', 'reverse'):
                return '← Heap.%s %s' % (m, o), 'unit'
            if m == 'clear_groups':
                return '← Heap.clearGroups ' + o, 'unit'
            if m == 'extend':
                return '← Heap.extend %s %s' % (o, self.ints(args[0])), 'unit'
            if m == 'remove':
                return '← Heap.remove %s %s' % (o, self.int(args[0])), 'unit'
            if m == 'sort':
                return '← Heap.sort (fun a b => .ok (decide (a ≤ b))) 900 ' + o, 'unit'
            if m == 'to_nested_lists':
                return '← Heap.toNested ' + o, 'nested'
            if m == 'equals':
                code, ty = self.expr(args[0])
                g = str(kw['compare_groups'].value if 'compare_groups' in kw else True).lower()
                if ty == 'ints':
                    code = '← ofItems ' + code
                return '← Heap.equals %s (%s) %s' % (o, code, g), 'bool'
        raise Skip(ast.dump(node)[:200])

    def assertion(self, call):
        name = call.func.attr
        if name in ('assertEqual', 'assertEquals', 'assertListEqual', 'assertIs'):
            (a, at), (b, bt) = self.expr(call.args[0]), self.expr(call.args[1])
            if at == 'glist':
                return 'check %d do return (← Heap.equals (%s) (%s) true)' % (call.lineno, a, b)
            if at == 'int':
                a = '(%s : Int)' % a
            if at == 'ints':
                a = '(%s : List Int)' % a
            return 'check %d do return decide ((%s) = (%s))' % (call.lineno, a, b)
        if name == 'assertTrue':
            return 'check %d do return (%s)' % (call.lineno, self.expr(call.args[0])[0])
        if name == 'assertFalse':
            return 'check %d do return !(%s)' % (call.lineno, self.expr(call.args[0])[0])
        if name == 'assertRaises':
            return 'checkRaises %d %s do let _ := (%s)' % (call.lineno, EXC[call.args[0].id], self.expr(call.args[1].body)[0])
        raise Skip(name)

    def body(self, stmts):
        out = []
        for s in stmts:
            if isinstance(s, ast.Assign):
                t = s.targets[0]
                code, ty = self.expr(s.value)
                if isinstance(t, ast.Name):
                    self.types[t.id] = ty
                    out.append('let %s%s := (%s)' % (t.id, ' : List Int' if ty == 'ints' else '', code))
                else:
                    obj, oty = self.expr(t.value)
                    out.append('Heap.%s (%s) %s (%s)' % ({'glist': 'setItem', 'view': 'viewSet'}[oty], obj, self.int(t.slice), code))
            elif isinstance(s, ast.Delete):
                t = s.targets[0]
                obj, oty = self.expr(t.value)
                out.append('Heap.%s (%s) %s' % ({'glist': 'delItem', 'view': 'viewDel'}[oty], obj, self.int(t.slice)))
            elif isinstance(s, ast.AugAssign):
                out.append('Heap.extend (%s) %s' % (s.target.id, self.ints(s.value)))
            elif isinstance(s, ast.Expr):
                c = s.value
                if isinstance(c.func.value, ast.Name) and c.func.value.id == 'self':
                    out.append('let fails := fails ++ (← %s)' % self.assertion(c))
                else:
                    out.append('let _ := (%s)' % self.expr(c)[0])
            else:
                raise Skip(ast.dump(s)[:200])
        return out


HEAD = '''import Verif.Tests.Basic
import Verif.Model.Heap
import Verif.SpecLists

/-!
# The tests of test/test_util.py, run on the model

Written by tools/translate_list_tests.py; see `Verif/Tests/Verses.lean`. When a method is defined twice, only the second
one counts.
-/

namespace Bibleref.Tests.GroupedLists

set_option linter.unusedVariables false

/-- An assertion: the number of its line if it does not hold or raises an exception. -/
def check (line : Nat) (m : HM Int Bool) : HM Int (List Nat) := fun h => match m h with
  | (.ok true, h) => (.ok [], h)
  | (_, h) => (.ok [line], h)

/-- `assertRaises` -/
def checkRaises (line : Nat) (err : PyErr) (m : HM Int Unit) : HM Int (List Nat) := fun h => match m h with
  | (.error err', h) => (.ok (if err = err' then [] else [line]), h)
  | (.ok _, h) => (.ok [line], h)

/-- `GroupedList(items)` with items that are not lists (util.py:188-200). -/
def ofItems (l : List Int) : HM Int Nat := do
  let L ← Heap.newList
  Heap.extend L l
  return L

/-- The loop of `GroupedList(items)` with items that are lists (util.py:188-200). -/
def appendGroups (L : Nat) : List (List Int) → HM Int Unit
  | [] => Pure.pure ()
  | g :: l => do
    Heap.appendGroup L g
    appendGroups L l

/-- `GroupedList(items)` with items that are lists (util.py:188-200). -/
def ofNested (l : List (List Int)) : HM Int Nat := do
  let L ← Heap.newList
  appendGroups L l
  return L

/-- `sorted(l)` -/
def sorted (l : List Int) : List Int := l.foldr (fun x m => m.takeWhile (· < x) ++ x :: m.dropWhile (· < x)) []

/-- `node.value` -/
def nodeValue (o : Option Nat) : HM Int Int := do
  let n ← HM.deref o
  HM.read fun h => h.value n

/-- `node.next` -/
def nodeNext (o : Option Nat) : HM Int (Option Nat) := do
  let n ← HM.deref o
  HM.read fun h => h.next n

/-- `_pop_before` (util.py:394-399), which only the tests use. -/
def popBefore (L : Nat) (node : Option Nat) : HM Int Int := do
  let n ← Heap.checkIsChild L node
  let f ← HM.read fun h => h.first L
  if f = some n then HM.throw .indexError
  else
    let q ← HM.read fun h => h.prev n
    Heap.popNode L q

/-- `verify_is_single_group` (test/test_util.py:346-360). -/
def isSingleGroup (L : Nat) : HM Int Bool := HM.readE fun h => do
  let l ← Heap.ids L h
  return l.zipIdx.all fun (n, i) =>
    (i ≠ 0 || h.firstHead L == some n && h.lastHead L == some n) && h.isHead n == (i == 0) &&
    h.prevHead n == none && h.nextHead n == none

'''


def main():
    tree = ast.parse(open(SRC).read())
    cls = [x for x in tree.body if isinstance(x, ast.ClassDef)][0]
    out = [HEAD]
    count = 0
    last = {f.name: f for f in cls.body if isinstance(f, ast.FunctionDef) and f.name.startswith('test')}
    for f in last.values():
        lines = Test().body(f.body)
        count += sum('check' in x for x in lines)
        out.append('/-- `%s` (test/test_util.py:%d-%d). -/\n' % (f.name, f.lineno, f.end_lineno))
        out.append('def %s : HM Int (List Nat) := do\n  let fails : List Nat := []\n' % f.name)
        out += ['  ' + x + '\n' for x in lines]
        out.append('  return fails\n\n')
        out.append('theorem %s_passes : (%s (Heap.empty 0)).1 = .ok [] := by decide +kernel\n\n' % (f.name, f.name))
    out.append('end Bibleref.Tests.GroupedLists\n')
    open(OUT, 'w').write(''.join(out))
    print(count, 'assertions')


main()
