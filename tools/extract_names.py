#!/usr/bin/env python3
"""Reads the text of /repo/lib/libsnmp/*.py (never runs it) and writes lean/Verif/Model/NamesData.lean:
what each module's top level does to names, and which names the function bodies refer to."""
import ast, builtins, os, symtable
D = '/repo/lib/libsnmp/'
ASYNCORE = '/app/python311/lib/python3.11/asyncore.py'
MODS = ['util', 'debug', 'role', 'asynrole', 'rfc1155', 'rfc1157', 'rfc1902', 'rfc1905', 'v1', 'v2', 'snmpmanager']
out = []

def q(s): return '"%s"' % s
def lst(xs, ind='   ', width=118):
    """A Lean list, wrapped."""
    if not xs: return '[]'
    lines, cur = [], ind + '['
    for i, x in enumerate(xs):
        x = x + (',' if i < len(xs) - 1 else ']')
        if len(cur) + len(x) + 1 > width and cur.strip() != '[':
            lines.append(cur.rstrip()); cur = ind + ' '
        cur += x + ' '
    lines.append(cur.rstrip())
    return '\n' + '\n'.join(lines)

def expr(e):
    if isinstance(e, ast.Name): return '.name %s' % q(e.id)
    if isinstance(e, ast.Attribute) and isinstance(e.value, ast.Name): return '.attr %s %s' % (q(e.value.id), q(e.attr))
    try:
        v = ast.literal_eval(e)
        if type(v) is int: return '.num %s' % (v if v >= 0 else '(%d)' % v)
    except ValueError: pass
    if isinstance(e, ast.Subscript) and isinstance(e.value, ast.Name) and isinstance(e.slice, ast.Constant):
        return '.item %s %s' % (q(e.value.id), q(e.slice.value))
    if isinstance(e, ast.BinOp): # a constant like -2147483648 or 2 ** 31
        v = eval(compile(ast.Expression(e), '', 'eval'), {'__builtins__': {}})
        return '.num %s' % (v if v >= 0 else '(%d)' % v)
    return '.other'

def target(node):
    """Module imported by an import statement inside the package, or None."""
    return None

trees, sources = {}, {}
for m in MODS:
    sources[m] = open(D + m + '.py').read()
    trees[m] = ast.parse(sources[m])

bodies = {}
for m in MODS:
    st = []
    for s in trees[m].body:
        if isinstance(s, ast.Expr) and isinstance(s.value, ast.Constant): continue
        if isinstance(s, ast.Import):
            for a in s.names:
                assert a.asname is None and '.' not in a.name
                st.append('.importExt %s' % q(a.name))
        elif isinstance(s, ast.ImportFrom):
            base = s.module or ''
            inside = s.level == 1 or base.split('.')[0] == 'libsnmp'
            if not inside:
                for a in s.names: st.append('.importExt %s' % q(a.name))
                continue
            sub = base.replace('libsnmp', '').lstrip('.')
            if s.names[0].name == '*': st.append('.star .%s' % sub)
            else:
                assert sub == ''
                for a in s.names: st.append('.importMod .%s' % a.name)
        elif isinstance(s, ast.ClassDef):
            attrs = []
            for b in s.body:
                if isinstance(b, ast.FunctionDef): attrs.append('(%s, .func %d)' % (q(b.name), b.lineno))
                elif isinstance(b, ast.Assign):
                    for t in b.targets: attrs.append('(%s, .val (%s))' % (q(t.id), expr(b.value)))
                elif isinstance(b, ast.Pass) or isinstance(b, ast.Expr) and isinstance(b.value, ast.Constant): pass
                else: raise Exception(ast.dump(b))
            st.append('.cls %d %s [%s]%s' % (s.lineno, q(s.name), ', '.join(expr(b) for b in s.bases), ' ' + lst(attrs, '      ').lstrip('\n').lstrip() if len(attrs) < 3 else lst(attrs, '      ')))
        elif isinstance(s, ast.FunctionDef): st.append('.func %d %s' % (s.lineno, q(s.name)))
        elif isinstance(s, ast.Assign):
            t = s.targets[0]; assert len(s.targets) == 1
            if isinstance(t, ast.Name):
                if isinstance(s.value, ast.Dict) and t.id == 'tagDecodeDict':
                    st.append('.registry %s [%s]' % (q(t.id), ', '.join('(%d, %s)' % (k.value, expr(v)) for k, v in zip(s.value.keys, s.value.values))))
                elif isinstance(s.value, ast.Dict) and all(isinstance(k.value, str) and isinstance(v, ast.Constant) and type(v.value) is int for k, v in zip(s.value.keys, s.value.values)):
                    st.append('.dict %d %s [%s]' % (s.lineno, q(t.id), ', '.join('(%s, %d)' % (q(k.value), v.value) for k, v in zip(s.value.keys, s.value.values))))
                else:
                    e = expr(s.value)
                    if e != '.other': st.append('.assign %s (%s)' % (q(t.id), e))
                    else:
                        us = [n.id for n in ast.walk(s.value) if isinstance(n, ast.Name)]
                        st.append('.compute %d %s [%s]' % (s.lineno, q(t.id), ', '.join(map(q, us))))
            elif isinstance(t, ast.Subscript):
                k = t.slice.value
                if isinstance(k, str): st.append('.setKey %s %s %d' % (q(t.value.id), q(k), s.value.value))
                else: st.append('.setTag %s %d (%s)' % (q(t.value.id), k, expr(s.value)))
        elif isinstance(s, ast.Expr):
            us = [n.id for n in ast.walk(s.value) if isinstance(n, ast.Name)]
            st.append('.use [%s]' % ', '.join(map(q, us)))
        else: raise Exception(ast.dump(s))
    bodies[m] = st

# references in function bodies
def walk(tab, acc):
    for ch in tab.get_children():
        if ch.get_type() != 'class':
            for s in ch.get_symbols():
                if s.is_global() and s.is_referenced(): acc.add(s.get_name())
        walk(ch, acc)
globs = {}
for m in MODS:
    acc = set(); walk(symtable.symtable(sources[m], m, 'exec'), acc)
    acc.discard('__debug__')
    first = {}
    for c in trees[m].body:
        for f in ast.walk(c):
            if isinstance(f, (ast.FunctionDef, ast.Lambda)):
                for n in ast.walk(f):
                    if isinstance(n, ast.Name) and n.id in acc and isinstance(n.ctx, ast.Load):
                        first.setdefault(n.id, n.lineno); first[n.id] = min(first[n.id], n.lineno)
    globs[m] = sorted((l, n) for n, l in first.items())
    missing = acc - set(first); assert not missing, (m, missing)
attrs = {}
for m in MODS:
    acc = {}
    for c in trees[m].body:
        for f in ast.walk(c):
            if isinstance(f, ast.FunctionDef):
                for n in ast.walk(f):
                    if isinstance(n, ast.Attribute) and isinstance(n.value, ast.Name) and n.value.id in MODS and \
                       ('importMod .' + n.value.id) in ' '.join(bodies[m]):
                        acc.setdefault((n.value.id, n.attr), []).append(n.lineno)
    attrs[m] = sorted((min(l), a, b) for (a, b), l in acc.items())

def selfs(c):
    uses, stores = {}, set()
    for n in ast.walk(c):
        if isinstance(n, ast.Attribute) and isinstance(n.value, ast.Name) and n.value.id == 'self':
            if isinstance(n.ctx, ast.Store): stores.add(n.attr)
            else: uses[n.attr] = min(uses.get(n.attr, 10**9), n.lineno)
    return sorted((l, a) for a, l in uses.items()), sorted(stores)

out.append('''import Verif.Model.Names

/-!
# The names of the package, as its source has them

Generated by tools/extract_names.py from the text of /repo/lib/libsnmp/*.py: every statement at the top level of each module
except documentation strings, with the line numbers of classes, functions and data; every name that a function body takes
from its module; every attribute of a package module and every attribute of `self` that a function body uses.
-/

namespace Libsnmp.Names

/-- The top level of each module, in order. -/
def body : Module → List Stmt''')
for m in MODS: out.append('  | .%s => -- lib/libsnmp/%s.py\n%s' % (m, m, lst(bodies[m], '   ').lstrip('\n')))
out.append('''
/-- Names that function bodies of the module take from the module or from the built-ins, with the first line. -/
def globalUses : Module → List (Nat × String)''')
for m in MODS: out.append('  | .%s =>%s' % (m, lst(['(%d, %s)' % (l, q(n)) for l, n in globs[m]], '   ') if globs[m] else ' []'))
out.append('''
/-- `module.name` in function bodies, for modules of the package, with the first line. -/
def moduleUses : Module → List (Nat × String × String)''')
for m in MODS: out.append('  | .%s =>%s' % (m, lst(['(%d, %s, %s)' % (l, q(a), q(b)) for l, a, b in attrs[m]], '   ') if attrs[m] else ' []'))
out.append('''
/-- Of each class (by the line of its class statement): attributes of `self` that its methods read or call, with the first line,
and those they assign. -/
def selfUses : Module → List (Nat × List (Nat × String) × List String)''')
for m in MODS:
    rows = []
    for c in trees[m].body:
        if isinstance(c, ast.ClassDef):
            u, s = selfs(c)
            if u or s: rows.append('(%d, [%s], [%s])' % (c.lineno, ', '.join('(%d, %s)' % (l, q(a)) for l, a in u), ', '.join(map(q, s))))
    out.append('  | .%s =>%s' % (m, lst(rows, '   ') if rows else ' []'))
t = ast.parse(open(ASYNCORE).read())
disp = [c for c in t.body if isinstance(c, ast.ClassDef) and c.name == 'dispatcher'][0]
names = set(selfs(disp)[1])
for b in disp.body:
    if isinstance(b, ast.FunctionDef): names.add(b.name)
    elif isinstance(b, ast.Assign): names |= {x.id for x in b.targets}
out.append('''
/-- CPython 3.11, asyncore.py: the attributes of `dispatcher` objects. -/
def dispatcherAttrs : List String :=%s''' % lst([q(n) for n in sorted(names)], '  '))
used = {n for m in MODS for _, n in globs[m]} | {'Exception'}
out.append('''
/-- Built-in names (those the package uses). -/
def builtinNames : List String :=%s

end Libsnmp.Names''' % lst([q(n) for n in sorted(used) if hasattr(builtins, n)], '  '))
open('/verif/lean/Verif/Model/NamesData.lean', 'w').write('\n'.join(out) + '\n')
