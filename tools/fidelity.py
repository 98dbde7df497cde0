#!/usr/bin/env python3
"""Compare the hand-written model with the source, function by function.

Reads /repo/src/choclo as text (Python `ast`, nothing is executed), prints every function in the notation of
the model and compares the token stream with the definition of the same name in lean/Verif/Model/*.lean.
Also checks that the `file:first-last` citation of every definition is the extent of that function.
Exit code 0 iff all functions of the library are modelled and agree.
"""
import ast, re, sys, os
REPO = '/repo/src/choclo'
MODEL = os.path.join(os.path.dirname(os.path.abspath(__file__)), '..', 'lean', 'Verif', 'Model')
FILES = {'utils.py': ('Utils.lean', 'utils'), 'point/_kernels.py': ('Point.lean', 'point'),
         'point/_forward.py': ('Point.lean', 'point'), 'dipole/_forward.py': ('Dipole.lean', 'dipole'),
         'prism/_utils.py': ('PrismUtils.lean', 'prism'), 'prism/_kernels.py': ('PrismKernels.lean', 'prism'),
         'prism/_gravity.py': ('PrismGravity.lean', 'prism'), 'prism/_magnetic.py': ('PrismMagnetic.lean', 'prism')}

# ---------------------------------------------------------------- Python side: terms
PREC = {ast.Add: 65, ast.Sub: 65, ast.Mult: 70, ast.Div: 70, ast.Pow: 75}
NP = {'sqrt': 'Fl.sqrt', 'log': 'Fl.log', 'arctan': 'Fl.arctan', 'sin': 'Fl.sin', 'cos': 'Fl.cos',
      'radians': 'Fl.radians'}
PURE = re.compile(r'is_')          # predicates are Bool functions; everything else is a Py computation


class Tr:
    """Fully parenthesised token strings, one per expression; `M(...)` marks an effectful call."""
    def e(self, x):
        if isinstance(x, ast.Name):
            return x.id
        if isinstance(x, ast.Constant):
            v = x.value
            if v == 0.5: return 'half'
            assert v == int(v), v
            return str(int(v))
        if isinstance(x, ast.Attribute):
            assert x.value.id == 'np'
            return {'pi': 'pi', 'nan': 'nan'}[x.attr]
        if isinstance(x, ast.UnaryOp) and isinstance(x.op, ast.USub):
            return f'(neg {self.e(x.operand)})'
        if isinstance(x, ast.BinOp):
            if isinstance(x.op, ast.Pow):
                return f'(pow {self.e(x.left)} {self.e(x.right)})'
            o = {ast.Add: 'add', ast.Sub: 'sub', ast.Mult: 'mul', ast.Div: 'div'}[type(x.op)]
            return f'({o} {self.e(x.left)} {self.e(x.right)})'
        if isinstance(x, ast.Call):
            a = ' '.join(self.e(y) for y in x.args)
            assert not x.keywords
            if isinstance(x.func, ast.Attribute):
                return f'({NP[x.func.attr]} {a})'
            if x.func.id == 'bool':
                return self.e(x.args[0])
            return f'({x.func.id} {a})'
        if isinstance(x, ast.Tuple):
            return '(tuple ' + ' '.join(self.e(y) for y in x.elts) + ')'
        if isinstance(x, ast.IfExp):
            return f'(ite {self.e(x.test)} {self.e(x.body)} {self.e(x.orelse)})'
        if isinstance(x, ast.BoolOp):
            o = 'and' if isinstance(x.op, ast.And) else 'or'
            vs = [self.e(v) for v in x.values]
            r = vs[0]
            for v in vs[1:]:
                r = f'({o} {r} {v})'
            return r
        if isinstance(x, ast.Compare):
            l = x.left; parts = []
            for op, r in zip(x.ops, x.comparators):
                if isinstance(op, ast.In):
                    assert isinstance(r, ast.Tuple)
                    q = [f'(eq {self.e(l)} {self.e(y)})' for y in r.elts]
                    parts.append(f'(or {q[0]} {q[1]})')
                elif isinstance(op, ast.Lt): parts.append(f'(lt {self.e(l)} {self.e(r)})')
                elif isinstance(op, ast.Gt): parts.append(f'(lt {self.e(r)} {self.e(l)})')
                elif isinstance(op, ast.LtE): parts.append(f'(le {self.e(l)} {self.e(r)})')
                elif isinstance(op, ast.Eq): parts.append(f'(eq {self.e(l)} {self.e(r)})')
                else: raise Exception(ast.dump(x))
                l = r
            r = parts[0]
            for v in parts[1:]:
                r = f'(and {r} {v})'
            return r
        raise Exception(ast.dump(x))


def flat_and(s):
    return s


def py_block(stmts, tr):
    """Normalise statements to a list of ('let',x,e) ('if',c,block,block) ('for',v,block) ('ret',e)."""
    out = []
    i = 0
    while i < len(stmts):
        s = stmts[i]
        if isinstance(s, ast.Expr) and isinstance(s.value, ast.Constant):
            pass
        elif isinstance(s, ast.Assign):
            t = s.targets[0]
            if isinstance(t, ast.Tuple):
                if isinstance(s.value, ast.Tuple):
                    for a, b in zip(t.elts, s.value.elts):
                        out.append(('let', a.id, tr.e(b)))
                else:
                    out.append(('let', '(tuple ' + ' '.join(a.id for a in t.elts) + ')', tr.e(s.value)))
            else:
                out.append(('let', t.id, tr.e(s.value)))
        elif isinstance(s, ast.AugAssign):
            o = {ast.Add: 'add', ast.Mult: 'mul'}[type(s.op)]
            out.append(('let', s.target.id, f'({o} {s.target.id} {tr.e(s.value)})'))
        elif isinstance(s, ast.Return):
            out.append(('ret', tr.e(s.value)))
        elif isinstance(s, ast.If):
            out.append(('if', tr.e(s.test), py_block(s.body, tr), py_block(s.orelse, tr)))
        elif isinstance(s, ast.For):
            assert ast.unparse(s.iter) == 'range(2)'
            out.append(('for', s.target.id, py_block(s.body, tr)))
        else:
            raise Exception(ast.dump(s))
        i += 1
    return out


# ---------------------------------------------------------------- Lean side: a small parser
TOK = re.compile(r"\s+|(←|:=|&&|\|\||/\.|[()\[\],^+*:;]|-|[A-Za-z_][A-Za-z0-9_.']*|\d+|ℤ|ℕ|=|→|×|↑)")


def lex(s):
    """tokens with (text, line, column)"""
    out = []
    for ln, L in enumerate(s.split('\n')):
        pos = 0
        while pos < len(L):
            m = TOK.match(L, pos)
            if not m: raise Exception(f'lex {L[pos:]!r}')
            if m.group(1): out.append((m.group(1), ln, pos))
            pos = m.end()
    return out


class LP:
    def __init__(self, toks): self.t = toks; self.i = 0
    def pk(self): return self.t[self.i][0] if self.i < len(self.t) else None
    def nx(self): self.i += 1; return self.t[self.i - 1][0]
    def eat(self, x):
        assert self.pk() == x, (x, self.t[self.i:self.i + 6]); self.i += 1
    # precedence: or < and < add < mul < neg < pow < app
    def ex(self): return self.por()
    def por(self):
        r = self.pand()
        while self.pk() == '||': self.nx(); r = f'(or {r} {self.pand()})'
        return r
    def pand(self):
        r = self.peq()
        while self.pk() == '&&': self.nx(); r = f'(and {r} {self.peq()})'
        return r
    def peq(self):
        r = self.padd()
        if self.pk() == '=': self.nx(); return f'(eq {r} {self.padd()})'
        return r
    def padd(self):
        r = self.pmul()
        while self.pk() in ('+', '-'):
            o = {'+': 'add', '-': 'sub'}[self.nx()]; r = f'({o} {r} {self.pmul()})'
        return r
    def pmul(self):
        r = self.punary()
        while self.pk() in ('*', '/.'):
            o = {'*': 'mul', '/.': 'div'}[self.nx()]; r = f'({o} {r} {self.punary()})'
        return r
    def punary(self):
        if self.pk() == '-': self.nx(); return f'(neg {self.ppow()})'
        return self.ppow()
    def ppow(self):
        r = self.papp()
        if self.pk() == '^': self.nx(); return f'(pow {r} {self.ppow()})'
        return r
    def atomstart(self):
        p = self.pk()
        if p is None or p in ('then', 'else', 'if', 'let', 'for', 'return', 'do', 'in', ':=', ',', ')', ']', '||', '&&',
                              '+', '-', '*', '/.', '^', '=', ':', '←'): return False
        # a statement keyword on a new line ends an application
        return True
    def papp(self):
        line0 = self.t[self.i][1]
        if self.pk() == '←':
            self.nx(); return self.ex()
        f = self.atom()
        args = []
        while self.atomstart():
            # `x := ...` on a new line starts a new statement
            if self.i + 1 < len(self.t) and self.t[self.i + 1][0] == ':=': break
            args.append(self.atom())
        if not args: return f
        g = f[3:] if f.startswith('Fl.') and f[3:] in ('eq', 'lt', 'le') else f
        g = g.replace('utils.', '')
        return f'({g} ' + ' '.join(args) + ')'
    def atom(self):
        x = self.nx()
        if x == '(':
            r = self.ex()
            if self.pk() == ',':
                xs = [r]
                while self.pk() == ',': self.nx(); xs.append(self.ex())
                self.eat(')'); return '(tuple ' + ' '.join(xs) + ')'
            if self.pk() == ':':                       # type ascription: drop the type
                while self.pk() != ')': self.nx()
            self.eat(')'); return r
        if x == '[':
            xs = [self.ex()]
            while self.pk() == ',': self.nx(); xs.append(self.ex())
            self.eat(']'); return '[' + ','.join(xs) + ']'
        return {'Fl.pi': 'pi', 'Fl.nan': 'nan', 'Fl.half': 'half'}.get(x, x)
    def iteOrEx(self):
        if self.pk() == 'if':
            self.nx(); c = self.ex(); self.eat('then'); a = self.ex(); self.eat('else'); b = self.ex()
            return f'(ite {c} {a} {b})'
        return self.ex()
    def pif(self, c0):
        """`if` whose chain of `else`s starts in column c0"""
        self.nx(); c = self.ex(); self.eat('then')
        a = self.block(c0 + 1); b = []
        if self.pk() == 'else' and self.t[self.i][2] == c0:
            self.nx()
            b = [self.pif(c0)] if self.pk() == 'if' else self.block(c0 + 1)
        return ('if', c, a, b)
    def block(self, col):
        """statements starting at column >= col"""
        out = []
        while self.i < len(self.t) and self.t[self.i][2] >= col and self.pk() not in ('else', ')'):
            x = self.pk()
            c0 = self.t[self.i][2]
            if x == 'let':
                self.nx()
                if self.pk() == 'mut': self.nx()
                names = self.atom()
                if self.pk() == ':':
                    while self.pk() not in (':=', '←'): self.nx()
                op = self.nx(); assert op in (':=', '←'), op
                v = self.iteOrEx()
                if names.startswith('(tuple') and v.startswith('(tuple'):
                    ns = names[7:-1].split(' '); vs = split_top(v[7:-1])
                    for a, b in zip(ns, vs): out.append(('let', a, b))
                else:
                    out.append(('let', names, v))
            elif x == 'return':
                self.nx(); out.append(('ret', self.ex()))
            elif x == 'if':
                out.append(self.pif(c0))
            elif x == 'for':
                self.nx(); v = self.nx(); self.eat('in'); l = self.atom(); assert l == '[0,1]', l
                self.eat('do'); out.append(('for', v, self.block(c0 + 1)))
            elif self.t[self.i + 1][0] == ':=':
                n = self.nx(); self.nx(); out.append(('let', n, self.iteOrEx()))
            else:
                out.append(('ret', self.ex()))
        return out


def split_top(s):
    out = []; d = 0; cur = ''
    for ch in s:
        if ch == '(': d += 1
        if ch == ')': d -= 1
        if ch == ' ' and d == 0: out.append(cur); cur = ''
        else: cur += ch
    out.append(cur); return out


# ---------------------------------------------------------------- normal form
def norm(b):
    """Statement list -> nested tuple: fallthrough after `if c: return a` becomes the else branch; a variable that is
    assigned and returned at once is the returned expression; single-use boolean lets are inlined."""
    if not b: return ()
    s = b[0]; rest = b[1:]
    if s[0] == 'let' and len(rest) == 1 and rest[0] == ('ret', s[1]):
        return (('ret', s[2]),)
    if s[0] == 'if':
        a, e = s[2], s[3]
        if len(rest) == 1 and rest[0][0] == 'ret' and assigns_only(s, rest[0][1]):
            return norm([('if', s[1], a + rest, e + rest)])
        if ends(a) :
            return (('if', s[1], norm(a), norm(e + rest)),)
        return (('if', s[1], norm(a), norm(e)),) + norm(rest)
    if s[0] == 'for':
        return (('for', s[1], norm(s[2])),) + norm(rest)
    return (s,) + norm(rest)


def assigns_only(s, v):
    """both branches (recursively) just assign v"""
    def ok(b):
        return len(b) == 1 and ((b[0][0] == 'let' and b[0][1] == v) or (b[0][0] == 'if' and ok(b[0][2]) and ok(b[0][3])))
    return s[0] == 'if' and ok(s[2]) and ok(s[3])


def ends(b):
    return bool(b) and (b[-1][0] == 'ret' or (b[-1][0] == 'if' and ends(b[-1][2]) and ends(b[-1][3])))


def inline_bool(b):
    """in the predicates of prism/_utils.py: substitute the named tests into the returned conjunction"""
    env = {}
    for s in b:
        if s[0] == 'let': env[s[1]] = s[2]
        else:
            r = s[1]
            for k, v in env.items():
                r = re.sub(r'(?<![\w])' + k + r'(?![\w])', v, r)
            return assoc(r)


def assoc(s):
    """flatten conjunctions/disjunctions (they have no effects, so grouping is immaterial)"""
    toks = re.findall(r'[()]|[^\s()]+', s)
    def parse(i):
        if toks[i] == '(':
            h = toks[i + 1]; i += 2; xs = []
            while toks[i] != ')':
                x, i = parse(i); xs.append(x)
            if h in ('and', 'or'):
                ys = []
                for x in xs:
                    if isinstance(x, tuple) and x[0] == h: ys += x[1:]
                    else: ys.append(x)
                return (h, *ys), i + 1
            return (h, *xs), i + 1
        return toks[i], i + 1
    return parse(0)[0]


def strip_under(s): return re.sub(r'(?<![\w.])_(?=(easting|northing|upward|prism)_?)', '', s)


def main():
    bad = 0; n = 0; seen = set()
    for f, (lf, ns) in FILES.items():
        src = open(f'{REPO}/{f}').read(); tree = ast.parse(src)
        lean = open(f'{MODEL}/{lf}').read()
        for fn in tree.body:
            if not isinstance(fn, ast.FunctionDef): continue
            n += 1
            seen.add((lf, fn.name))
            first = fn.lineno; last = fn.end_lineno
            decs = [ast.unparse(d) for d in fn.decorator_list]
            m = re.search(r'/--(?P<doc>(?:(?!-/).)*?)-/\s*noncomputable def ' + re.escape(fn.name) + r'(?=[\s(])(?P<body>.*?)(?=\n/--|\nend )',
                          lean, re.S)
            if not m: print('MISSING', f, fn.name); bad += 1; continue
            cit = re.search(r'`/repo/src/choclo/(\S+?):(\d+)-(\d+)`\s+`(\w+)`', m['doc'])
            if not cit or cit.group(1) != f or (int(cit.group(2)), int(cit.group(3))) != (first, last) or cit.group(4) != fn.name:
                print('CITATION', f, fn.name, (first, last), cit and cit.groups()); bad += 1
            if decs != ['jit(nopython=True)']: print('DECORATOR', f, fn.name, decs); bad += 1
            sig, body = m['body'].split(':=', 1)
            largs = []
            for g in re.findall(r'\(([^()]*?):', sig): largs += g.split()
            largs = [strip_under(a) for a in largs]
            pargs = [a.arg for a in fn.args.args]
            if largs != pargs: print('ARGS', f, fn.name, largs, pargs); bad += 1
            if fn.args.defaults: print('DEFAULTS', f, fn.name); bad += 1
            py = py_block(fn.body, Tr())
            body = re.sub(r'^\s*do\n', '\n', body)
            toks = lex(body.rstrip())
            lp = LP(toks); lb = lp.block(0)
            assert lp.i == len(toks), (fn.name, toks[lp.i:lp.i + 5])
            if lf == 'PrismUtils.lean':
                a, b = inline_bool(py), assoc(lb[0][1])
            else:
                a, b = norm(py), norm(lb)
            if a != b:
                print('DIFFERS', f, fn.name); print('  python', a); print('  lean  ', b); bad += 1
    for lf in {v[0] for v in FILES.values()}:
        for d in re.findall(r'^noncomputable def (\w+)', open(f'{MODEL}/{lf}').read(), re.M):
            if (lf, d) not in seen and d not in ('GRAVITATIONAL_CONST', 'VACUUM_MAGNETIC_PERMEABILITY'):
                print('EXTRA', lf, d); bad += 1
    consts = ast.parse(open(f'{REPO}/constants.py').read())
    lean = open(f'{MODEL}/Utils.lean').read()
    for s in consts.body:
        if isinstance(s, ast.Assign):
            seg = ast.get_source_segment(open(f'{REPO}/constants.py').read(), s.value); nm = s.targets[0].id
            n += 1
            m = re.search(rf'def {nm} : Fl A := Fl.lit (\S+)', lean)
            from fractions import Fraction
            if not m or Fraction(m.group(1)) != Fraction(seg): print('CONST', nm); bad += 1
    print(f'{n} functions and constants compared, {bad} differences')
    return 1 if bad else 0


sys.exit(main())
