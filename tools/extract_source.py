#!/usr/bin/env python3
"""Reads the text of /repo/lib/libsnmp/*.py (never runs it) and writes lean/Verif/Model/SourceData.lean:
the functions and classes of the codec modules as syntax trees of Model/Lang.lean.
Left out: comments, documentation strings, and everything that is not in MODS."""
import ast, sys
D = '/repo/lib/libsnmp/'
MODS = ['util', 'rfc1155', 'rfc1157', 'rfc1902', 'rfc1905', 'role', 'asynrole', 'v1', 'v2', 'snmpmanager']
EXT = ['asyncore', 'socket', 'sys', 'time', 'traceback']   # modules whose functions are outside the model
OUT = '/verif/lean/Verif/Model/SourceData.lean'

def q(s):
    r = '"'
    for c in s:
        o = ord(c)
        if c in '"\\': r += '\\' + c
        elif 32 <= o < 127: r += c
        else: assert o < 256; r += '\\x%02x' % o
    return r + '"'
def num(n): return str(n) if n >= 0 else '(%d)' % n
def par(s): return s if (' ' not in s or s[0] in '([') else '(%s)' % s
def lst(xs): return '[' + ', '.join(xs) + ']'

BIN = {ast.Add: '.add', ast.Sub: '.sub', ast.Mult: '.mul', ast.Div: '.div', ast.Mod: '.mod', ast.LShift: '.shl',
       ast.RShift: '.shr', ast.BitOr: '.bor', ast.BitAnd: '.band'}
CMP = {ast.Eq: '.eq', ast.NotEq: '.ne', ast.Lt: '.lt', ast.LtE: '.le', ast.Gt: '.gt', ast.GtE: '.ge', ast.Is: '.is',
       ast.IsNot: '.isNot'}

def bound_names(fn):
    """Names that the body of a function binds, in order of appearance (not those of inner scopes)."""
    r = []
    def tgt(t):
        if isinstance(t, ast.Name):
            if t.id not in r: r.append(t.id)
        elif isinstance(t, ast.Tuple):
            for x in t.elts: tgt(x)
    def name(h):
        if isinstance(h, ast.ExceptHandler) and h.name and h.name not in r: r.append(h.name)
    def walk(s):
        assert not isinstance(s, (ast.Global, ast.Nonlocal, ast.With, ast.FunctionDef, ast.ClassDef, ast.Import)), ast.dump(s)
        name(s)
        if isinstance(s, ast.Assign):
            for t in s.targets: tgt(t)
        elif isinstance(s, (ast.AugAssign, ast.For)): tgt(s.target)
        for f in ('body', 'orelse', 'handlers', 'finalbody'):
            for x in getattr(s, f, []) or []: walk(x)
    for s in fn.body: walk(s)
    return r

used, formats = set(), []          # global names used by function bodies; formats
cur = None                          # module being read

class Emit:
    def __init__(self, names): self.names = list(names)
    def e(self, x):
        p = lambda y: par(self.e(y))
        if isinstance(x, ast.Constant):
            v = x.value
            if v is None: return '.none'
            if v is True or v is False: return '.bool ' + ('true' if v else 'false')
            if type(v) is int: return '.int ' + num(v)
            if type(v) is str: return '.str (lit %s)' % q(v)
            if type(v) is float: return '.float %d %d' % v.as_integer_ratio()
        if isinstance(x, ast.Dict):
            assert not x.keys
            return '.emptyDict'
        if isinstance(x, ast.Name):
            if x.id not in self.names: used.add((cur, x.id))
            return ('.loc ' if x.id in self.names else '.glob ') + q(x.id)
        if isinstance(x, ast.Attribute): return '.attr %s %s' % (p(x.value), q(x.attr))
        if isinstance(x, ast.Subscript):
            if isinstance(x.slice, ast.Slice):
                assert x.slice.step is None
                f = lambda y: '.none' if y is None else p(y)
                return '.slice %s %s %s' % (p(x.value), f(x.slice.lower), f(x.slice.upper))
            return '.index %s %s' % (p(x.value), p(x.slice))
        if isinstance(x, ast.Call):
            assert not any(isinstance(a, ast.Starred) for a in x.args)
            if x.keywords:
                return '.callK %s %s %s %s' % (p(x.func), lst([self.e(a) for a in x.args]), lst([q(k.arg) for k in x.keywords]),
                                               lst([self.e(k.value) for k in x.keywords]))
            return '.call %s %s' % (p(x.func), lst([self.e(a) for a in x.args]))
        if isinstance(x, ast.BinOp):
            if isinstance(x.op, ast.Mod) and isinstance(x.left, ast.Constant) and x.left.value not in formats:
                formats.append(x.left.value)
            return '.bin %s %s %s' % (BIN[type(x.op)], p(x.left), p(x.right))
        if isinstance(x, ast.UnaryOp):
            if isinstance(x.op, ast.USub):
                if isinstance(x.operand, ast.Constant): return '.int (-%d)' % x.operand.value
                return '.neg %s' % p(x.operand)
            assert isinstance(x.op, ast.Not)
            return '.not %s' % p(x.operand)
        if isinstance(x, ast.BoolOp):
            op = '.and' if isinstance(x.op, ast.And) else '.or'
            r = p(x.values[-1])
            for y in reversed(x.values[:-1]): r = '(%s %s %s)' % (op, p(y), r)
            return r[1:-1]
        if isinstance(x, ast.Compare):
            if len(x.ops) == 1: return '.cmp %s %s %s' % (CMP[type(x.ops[0])], p(x.left), p(x.comparators[0]))
            assert len(x.ops) == 2
            return '.cmp2 %s %s %s %s %s' % (CMP[type(x.ops[0])], CMP[type(x.ops[1])], p(x.left), p(x.comparators[0]), p(x.comparators[1]))
        if isinstance(x, ast.IfExp): return '.ife %s %s %s' % (p(x.test), p(x.body), p(x.orelse))
        if isinstance(x, ast.ListComp):
            assert len(x.generators) == 1 and not x.generators[0].ifs
            g = x.generators[0]
            return '.comp %s %s %s' % (par(Emit(self.names + [g.target.id]).e(x.elt)), q(g.target.id), p(g.iter))
        if isinstance(x, ast.Lambda):
            ps = [a.arg for a in x.args.args]
            return '.lam %s %s' % (lst([q(a) for a in ps]), par(Emit(self.names + ps).e(x.body)))
        if isinstance(x, ast.Tuple): return '.tuple %s' % lst([self.e(a) for a in x.elts])
        if isinstance(x, ast.List): return '.list %s' % lst([self.e(a) for a in x.elts])
        raise Exception(ast.dump(x))
    def t(self, x):
        if isinstance(x, ast.Name): return '(.loc %s)' % q(x.id)
        if isinstance(x, ast.Attribute): return '(.attr %s %s)' % (par(self.e(x.value)), q(x.attr))
        if isinstance(x, ast.Subscript) and not isinstance(x.slice, ast.Slice):
            return '(.index %s %s)' % (par(self.e(x.value)), par(self.e(x.slice)))
        if isinstance(x, ast.Tuple): return '(.tuple %s)' % lst([q(y.id) for y in x.elts])
        raise Exception(ast.dump(x))
    def block(self, ss, ind):
        r = []
        for s in ss:
            if isinstance(s, ast.Expr) and isinstance(s.value, ast.Constant): continue
            r.append(self.s(s, ind + 1))
        if not r: return '[]'
        return '[' + (',\n' + ' ' * (ind + 1)).join(r) + ']'
    def loop(self, x):
        ident = '%s_%d' % (cur, x.lineno)
        b = self.block(x.body, 1)
        fns.append('/-- %s.py:%d-%d, the body of the loop. -/\ndef %s : List Stmt :=\n %s\n' % (cur, x.lineno, x.end_lineno, ident, b))
        return ident
    def s(self, x, ind):
        p = lambda y: par(self.e(y))
        nl = '\n' + ' ' * (ind + 2)
        if isinstance(x, ast.Expr): return '.expr %s' % p(x.value)
        if isinstance(x, ast.Assign):
            assert len(x.targets) == 1
            return '.assign %s %s' % (self.t(x.targets[0]), p(x.value))
        if isinstance(x, ast.AugAssign): return '.aug %s %s %s' % (self.t(x.target), BIN[type(x.op)], p(x.value))
        if isinstance(x, ast.Return): return '.ret %s' % ('.none' if x.value is None else p(x.value))
        if isinstance(x, ast.Raise):
            assert x.cause is None
            return '.reraise' if x.exc is None else '.raise %s' % p(x.exc)
        if isinstance(x, ast.Pass): return '.pass'
        if isinstance(x, ast.Delete):
            assert len(x.targets) == 1 and isinstance(x.targets[0], ast.Subscript)
            return '.del %s %s' % (p(x.targets[0].value), p(x.targets[0].slice))
        if isinstance(x, ast.Break): return '.brk'
        if isinstance(x, ast.If):
            return '.ifS %s%s%s%s%s' % (p(x.test), nl, self.block(x.body, ind + 2), nl, self.block(x.orelse, ind + 2))
        if isinstance(x, ast.While):
            assert not x.orelse
            return '.whileS %s %s' % (p(x.test), self.loop(x))
        if isinstance(x, ast.For):
            assert not x.orelse and isinstance(x.target, ast.Name)
            return '.forS %s %s %s' % (q(x.target.id), p(x.iter), self.loop(x))
        if isinstance(x, ast.Try):
            assert not x.orelse and not x.finalbody and len(x.handlers) <= 2
            hd = x.handlers[0]
            tn = lambda t: t.id if isinstance(t, ast.Name) else tn(t.value) + '.' + t.attr
            n = 'none' if hd.type is None else '(some %s)' % q(tn(hd.type))
            if len(x.handlers) == 2 or hd.name or n == '(some "Exception")':
                other = '[.reraise]'
                if len(x.handlers) == 2:
                    assert x.handlers[1].type is None
                    other = self.block(x.handlers[1].body, ind + 2)
                return '.tryAs%s%s %s %s%s%s%s%s' % (nl, self.block(x.body, ind + 2), n, '(some %s)' % q(hd.name) if hd.name else 'none',
                                                  nl, self.block(hd.body, ind + 2), nl, other)
            return '.tryS%s%s %s%s%s' % (nl, self.block(x.body, ind + 2), n, nl, self.block(hd.body, ind + 2))
        raise Exception(ast.dump(x))

statics, static_doc = [], []
def static(cell, doc):
    statics.append(cell); static_doc.append(doc)
    return len(statics) - 1

globs = {}        # module -> name -> value (Lean text, or python dict for a dictionary)
fns, classes = [], []
dicts = {}

def value(x, m, env, doc):
    """The value of a default or of an assignment in a class body or at the top level."""
    if isinstance(x, ast.Constant):
        v = x.value
        if v is None: return '.none'
        if type(v) is int: return '.int ' + num(v)
        if type(v) is str: return '.str (lit %s)' % q(v)
        if type(v) is float: return '.quot %d %d' % v.as_integer_ratio()
    if isinstance(x, ast.Tuple): return '.tuple %s' % lst([value(y, m, env, doc) for y in x.elts])
    if isinstance(x, ast.UnaryOp) and isinstance(x.op, ast.USub): return '.int (-%d)' % x.operand.value
    if isinstance(x, ast.List) and not x.elts: return '.ref %d' % static('.list []', doc)
    if isinstance(x, ast.Name): return env[x.id]
    if isinstance(x, ast.Subscript) and isinstance(x.value, ast.Name) and isinstance(env.get(x.value.id), dict):
        return '.int ' + num(env[x.value.id][x.slice.value])
    if isinstance(x, ast.Dict):
        f = lambda y: value(y, m, env, doc)
        return '.ref %d' % static('.dict [' + ',\n      '.join('(%s, %s)' % (f(k), f(v)) for k, v in zip(x.keys, x.values)) + ']', doc)
    return None

def function(m, s, cname, env):
    a = s.args
    assert not a.vararg and not a.kwarg and not a.kwonlyargs and not s.decorator_list
    ps = [p.arg for p in a.args]
    ds = [value(d, m, env, '%s.py:%d, default of %s' % (m, d.lineno, s.name)) for d in a.defaults]
    assert None not in ds
    ls = [x for x in bound_names(s) if x not in ps]
    em = Emit(ps + ls)
    ident = '%s_%d' % (m, s.lineno)
    fns.append('''/-- %s.py:%d-%d `%s`. -/
def %s : Fn where
  name := %s
  params := %s
  defaults := %s
  locals := %s
  body :=
   %s
''' % (m, s.lineno, s.end_lineno, (cname + '.' if cname else '') + s.name, ident, q(s.name), lst([q(x) for x in ps]),
       lst(ds), lst([q(x) for x in ls]), em.block(s.body, 3)))
    codes.append((m, s.lineno, ident))
    arity.append((m, s.lineno, ident, ps, ds, ls))

codes, arity = [], []
for m in MODS:
    cur = m
    env = globs[m] = {}
    for s in ast.parse(open(D + m + '.py').read()).body:
        if isinstance(s, ast.Expr): continue     # documentation, log.setLevel(...)
        if isinstance(s, ast.Import):
            for a in s.names: env[a.name] = '%s %s' % ('.ext' if a.name in EXT else '.builtin', q(a.name))
        elif isinstance(s, ast.ImportFrom):
            if s.level == 0 and s.module.split('.')[0] != 'libsnmp':
                for a in s.names: env[a.name] = '.builtin %s' % q(a.name)
            elif s.names[0].name == '*':
                src = globs[s.module.split('.')[-1]]
                for k, v in src.items():
                    if not k.startswith('_'): env[k] = v
            else:
                for a in s.names: env[a.name] = '.mod .%s' % a.name
        elif isinstance(s, ast.FunctionDef):
            function(m, s, None, env); env[s.name] = '.func .%s %d' % (m, s.lineno)
        elif isinstance(s, ast.ClassDef):
            attrs = []
            assert len(s.bases) <= 1 and not s.keywords and not s.decorator_list
            base = 'none'
            if s.bases:
                b = s.bases[0]
                if isinstance(b, ast.Attribute):
                    v = globs[b.value.id][b.attr] if b.value.id in globs else '.ext %s' % q(b.value.id + '.' + b.attr)
                elif b.id in env: v = env[b.id]
                else: assert b.id == 'Exception'; v = '.builtin "Exception"'
                base = '(some (%s))' % v
            for c in s.body:
                if isinstance(c, ast.FunctionDef):
                    function(m, c, s.name, env); attrs.insert(0, (c.name, '.func .%s %d' % (m, c.lineno)))
                elif isinstance(c, ast.Assign):
                    v = value(c.value, m, env, '%s.py:%d, %s.%s' % (m, c.lineno, s.name, c.targets[0].id))
                    assert v is not None, ast.dump(c)
                    attrs.insert(0, (c.targets[0].id, v))
                elif isinstance(c, ast.Pass) or isinstance(c, ast.Expr) and isinstance(c.value, ast.Constant): pass
                else: raise Exception(ast.dump(c))
            classes.append((m, s.lineno, s.name, base, attrs))
            env[s.name] = '.cls (.%s, %d)' % (m, s.lineno)
        elif isinstance(s, ast.Assign):
            t = s.targets[0]
            if isinstance(t, ast.Name):
                if t.id == 'tagDecodeDict': env[t.id] = '.registry'
                elif t.id == 'log': env[t.id] = '.logger'
                elif t.id == 'typeValDict': env[t.id] = value(s.value, m, env, '%s.py:%d, %s' % (m, s.lineno, t.id))
                elif isinstance(s.value, ast.Dict): env[t.id] = {k.value: v.value for k, v in zip(s.value.keys, s.value.values)}
                else: env[t.id] = value(s.value, m, env, ''); assert env[t.id] is not None
            else:
                d = t.value.id
                if d != 'tagDecodeDict': env[d][t.slice.value] = s.value.value
        else: raise Exception(ast.dump(s))

o = open(OUT, 'w')
w = lambda s: o.write(s + '\n')
w('''import Verif.Model.Lang

/-!
# The source text of the codec

Generated by tools/extract_source.py from the text of %s: every function and class, as syntax trees.  Comments and
documentation strings are left out.
-/

namespace Libsnmp.Src

/-! ## Functions -/
''' % ', '.join(m + '.py' for m in MODS))
for f in fns: w(f)
w('/-- The functions by module and line. -/\ndef code : Module → Nat → Option Fn')
for m, l, i in codes: w('  | .%s, %d => some %s' % (m, l, i))
w('  | _, _ => none\n\n/-! ## Classes -/\n')
w('/-- The classes by module and line. -/\ndef classes : CId → Option Class')
for m, l, n, b, at in classes:
    w('  | (.%s, %d) => some ⟨(.%s, %d), %s, %s,\n     [%s]⟩' % (m, l, m, l, q(n), b, ',\n      '.join('(%s, %s)' % (q(k), v) for k, v in at)))
w('  | _ => none\n\n/-! ## Global names -/\n')
for m in MODS:
    w('def globals_%s : String → Option V' % m)
    for k, v in globs[m].items():
        if isinstance(v, str): w('  | %s => some (%s)' % (q(k), v))
    w('  | _ => none\n')
w('/-- The global names of the modules (dictionaries left out: only class bodies use them). -/\ndef globals : Module → String → Option V')
for m in MODS: w('  | .%s => globals_%s' % (m, m))
w('''  | _ => fun _ => none

def program : Program := ⟨code, classes, globals⟩

/-! ## Objects made when the modules are imported: mutable defaults and class attributes -/

def statics : Heap :=''')
for i, (c, d) in enumerate(zip(statics, static_doc)):
    w('  %s-- %d: %s\n   %s%s' % ('[ ' if i == 0 else '  ', i, d, c, ',' if i < len(statics) - 1 else ' ]'))
w('\nend Libsnmp.Src')
o.close()

# ---- facts, each proved by evaluation ----
BUILTINS = ["ord", "chr", "len", "int", "str", "list", "tuple", "map", "range", "isinstance", "type", "hex", "oct", "float",
            "ValueError", "TypeError", "KeyError", "IndexError", "NotImplementedError", "Exception", "callable", "issubclass"]
o = open('/verif/lean/Verif/Lemmas/SourceFacts.lean', 'w')
w('''import Verif.Lemmas.Interp

/-!
# Facts about the source text, by evaluation

Generated by tools/extract_source.py: what each global name in a function body is, the local names at the start of each call,
the pieces of each format.
-/

namespace Libsnmp.Src
open Libsnmp

variable {cfg : Cfg}

/-! ## Global names -/
''')
for m, x in sorted(used):
    if x in globs[m]: v = globs[m][x]
    elif x == '__debug__': v = '.bool cfg.debug'
    elif x in BUILTINS: v = '.builtin %s' % q(x)
    elif x == 'open': v = '.ext "open"'
    else: v = None
    nm = 'glob_%s_%s' % (m, x.replace('__', ''))
    if v is None: w('@[src] theorem %s : program.glob cfg .%s %s = none := rfl' % (nm, m, q(x)))
    else: w('@[src] theorem %s : program.glob cfg .%s %s = some (%s) := rfl' % (nm, m, q(x), v))
for m in ('util', 'rfc1155', 'rfc1157', 'rfc1905', 'role', 'asynrole', 'v1', 'v2'):
    for x, v in globs[m].items():
        if not isinstance(v, str): continue
        w('@[src] theorem globals_%s_%s : program.globals .%s %s = some (%s) := rfl' % (m, x.replace('__', ''), m, q(x), v))
w('\n/-! ## Calls -/\n')
for m, l, i, ps, ds, ls in arity:
    for k in range(len(ps) - len(ds), len(ps) + 1):
        args = ['x%d' % j for j in range(k)]
        envl = ['(%s, some x%d)' % (q(ps[j]), j) for j in range(k)]
        envl += ['(%s, some (%s))' % (q(ps[j]), ds[j - (len(ps) - len(ds))]) for j in range(k, len(ps))]
        envl += ['(%s, none)' % q(x) for x in ls]
        bind = ' (%s : V)' % ' '.join(args) if args else ''
        w('''theorem call_%s%s%s (h : Heap) : call program cfg (.func .%s %d) %s h =
    result (block program cfg .%s %s %s.body h) := by
  rw [call.eq_1]; rfl''' % (i, '' if k == len(ps) else '_%d' % k, bind, m, l, lst(args), m, lst(envl), i))
w('\n/-! ## Formats -/\n')
import re
for k, f in enumerate(formats):
    ps, rest = [], f
    for t in re.split(r'(%[0-9]*(?:\.[0-9]+)?[a-zA-Z])', f):
        if not t: continue
        mm = re.fullmatch(r'%([0-9]*)(?:\.([0-9]+))?([a-zA-Z])', t)
        if mm: ps.append('.conv %d %s %d' % (int(mm.group(1) or 0), '(some %s)' % mm.group(2) if mm.group(2) else 'none', ord(mm.group(3))))
        else: ps.append('.text (lit %s)' % q(t))
    w('''@[src] theorem pieces_%d : pieces ((lit %s).length + 1) (lit %s) =
    some %s := by decide +kernel''' % (k, q(f), q(f), lst(ps)))
w('\nend Libsnmp.Src')
o.close()
