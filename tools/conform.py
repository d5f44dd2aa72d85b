#!/usr/bin/env python3
"""Translate the unit tests of /repo/tests/tests/src into Lean checks of the model.

usage: conform.py DEFS TESTDIR OUTDIR
DEFS is the output of tools/modeldefs.txt (name|argument types|result type per line).
One Lean file per test file is written.  Statements that the translator does not understand end
the section they are in; the number of checks kept and dropped is printed per file.
"""
import re, sys, os, itertools

# ---------------------------------------------------------------- signatures of the model
def load_defs(path):
    sigs = {}
    for line in open(path):
        p = line.rstrip('\n').split('|')
        if len(p) != 3: continue
        args = [norm_ty(a) for a in p[1].split(';')] if p[1] else []
        sigs[p[0].replace('MathLib.', '')] = (args, norm_ty(p[2]))
    return sigs

def norm_ty(t):
    t = t.replace('MathLib.', '').strip()
    m = re.fullmatch(r'Res (.*)', t)
    if m:
        u = m.group(1)
        if u.startswith('(') and u.endswith(')'): u = u[1:-1]
        return ('Res', norm_ty(u))
    m = re.fullmatch(r'Option (.*)', t)
    if m:
        u = m.group(1)
        if u.startswith('(') and u.endswith(')'): u = u[1:-1]
        return ('Option', norm_ty(u))
    if ' × ' in t:
        return ('Prod',) + tuple(norm_ty(x) for x in t.split(' × '))
    if t == 'R': return 'R'
    if t == 'ℤ': return 'I'
    if t == 'ℕ': return 'N'
    if t == 'Bool': return 'B'
    if t.endswith(' R') and '→' not in t: return t[:-2]
    return t

# ---------------------------------------------------------------- lexer and parser
TOK = re.compile(r'''\s+|//[^\n]*|/\*.*?\*/|(?P<num>(?:\d+\.\d*|\.\d+|\d+)(?:[eE][-+]?\d+)?f?)|(?P<str>"(?:\\.|[^"])*")|
(?P<id>[A-Za-z_]\w*(?:::[A-Za-z_]\w*)*)|(?P<op><<|\+\+|--|\+=|-=|\*=|/=|%=|==|!=|<=|>=|&&|\|\||->|[-+*/%<>=!?:;,.(){}\[\]&])''', re.X | re.S)

class Unsupported(Exception): pass

def lex(src):
    out, i, line = [], 0, 1
    while i < len(src):
        m = TOK.match(src, i)
        if not m:
            if src[i] == '#':
                j = src.index('\n', i); i = j; continue
            raise SyntaxError(f'line {line}: {src[i:i+20]!r}')
        if m.lastgroup: out.append((m.lastgroup, m.group(), line))
        line += m.group().count('\n'); i = m.end()
    out.append(('eof', '', line))
    return out

TYPES = '''Vec2 Vec3 Vec4 Mat2 Mat3 Mat34 Mat4 Quat AABB2 AABB3 CAABB2 CAABB3 Circle Sphere Plane Line2
Line3 Ray2 Ray3 Tri2 ColorRGB ColorRGBA ColorHSV BezierSegment3 HermiteSplineSegment3 Frustum'''.split()
MAXCOMBO = 7   # sections run over a product of GENERATE lists: at most about this many combinations
STATICS = ['TriDiagonal', 'GaussJordan', 'SplineSolver3']

def type_of_name(n):
    if n in ('float', 'double'): return 'R'
    if n == 'int': return 'I'
    if n == 'bool': return 'B'
    if n == 'auto': return 'auto'
    if n in ('Coord', 'Axis', 'ResponseCurveType', 'InterpolationMode'): return n
    if n[-1:] in 'fd' and n[:-1] in TYPES: return n[:-1]
    return None

class P:
    def __init__(s, toks): s.t, s.i = toks, 0
    def peek(s, k=0): return s.t[s.i + k][1] if s.t[s.i + k][0] != 'str' else '"'
    def next(s): s.i += 1; return s.t[s.i - 1]
    def line(s): return s.t[s.i][2]
    def expect(s, v):
        if s.peek() != v: raise SyntaxError(f'line {s.line()}: expected {v} got {s.peek()}')
        s.i += 1
    # statements
    def block(s):
        s.expect('{'); r = []
        while s.peek() != '}': r += s.stmt()
        s.expect('}'); return r
    def stmt(s):
        ln = s.line(); k, v, _ = s.t[s.i]
        if v == '{': return s.block()
        if v == ';': s.next(); return []
        if v in ('SECTION', 'TEST_CASE'):
            s.next(); s.expect('(')
            title = s.next()[1]
            while s.peek() != ')': s.next()
            s.expect(')'); return [('section', ln, title, s.block())]
        if v == 'for':
            s.next(); s.expect('(')
            start = s.i; depth = 1
            while depth:
                w = s.next()[1]; depth += (w == '(') - (w == ')')
            head = s.t[start:s.i - 1]
            return [('for', ln, head, s.body())]
        if v == 'if':
            s.next(); s.expect('('); c = s.expr(); s.expect(')')
            a = s.body(); b = []
            if s.peek() == 'else': s.next(); b = s.body()
            return [('if', ln, c, a, b)]
        if v == 'using':
            while s.next()[1] != ';': pass
            return []
        if v in ('REQUIRE', 'CHECK', 'REQUIRE_THAT', 'REQUIRE_FALSE'):
            s.next(); s.expect('('); a = s.args(')')
            s.expect(';'); return [('check', ln, v, a)]
        save = s.i
        if v in ('const', 'static'): s.next(); k, v, _ = s.t[s.i]
        ty = type_of_name(v)
        if ty and s.t[s.i + 1][0] == 'id' or ty and s.peek(1) in ('*', '&') and s.t[s.i+2][0] == 'id':
            s.next()
            if s.peek() in ('*', '&'):
                if s.peek() == '*': ty = 'ptr'
                s.next()
            r = []
            while True:
                n = s.next()[1]
                if s.peek() == '(':
                    s.next(); a = s.args(')'); r.append(('decl', ln, ty, n, ('ctor', a)))
                elif s.peek() == '[':
                    s.next(); size = None if s.peek() == ']' else s.expr(); s.expect(']'); init = None
                    if s.peek() == '=': s.next(); init = s.expr()
                    r.append(('array', ln, ty, n, size, init))
                elif s.peek() == '=':
                    s.next(); r.append(('decl', ln, ty, n, ('init', s.expr())))
                elif s.peek() == '{':
                    r.append(('decl', ln, ty, n, ('init', s.expr())))
                else: r.append(('decl', ln, ty, n, None))
                if s.peek() == ',': s.next(); continue
                s.expect(';'); return r
        s.i = save
        try:
            e = s.expr()
            s.expect(';')
            return [('expr', ln, e)]
        except SyntaxError:
            s.i = save
            while s.next()[1] != ';': pass
            return [('bad', ln)]
    def body(s): return s.block() if s.peek() == '{' else s.stmt()
    def args(s, close):
        r = []
        while s.peek() != close:
            r.append(s.expr())
            if s.peek() == ',': s.next()
        s.expect(close); return r
    PREC = {'=': 1, '+=': 1, '-=': 1, '*=': 1, '/=': 1, '%=': 1, '?': 2, '||': 3, '&&': 4, '==': 6, '!=': 6,
            '<': 7, '>': 7, '<=': 7, '>=': 7, '+': 9, '-': 9, '*': 10, '/': 10, '%': 10}
    def expr(s, p=0):
        a = s.unary()
        while True:
            o = s.peek(); q = s.PREC.get(o)
            if q is None or q < p or s.t[s.i][0] != 'op': return a
            s.next()
            if q == 1: a = ('assign', o, a, s.expr(1))
            elif o == '?':
                x = s.expr(2); s.expect(':'); a = ('cond', a, x, s.expr(2))
            else: a = ('bin', o, a, s.expr(q + 1))
    def unary(s):
        o = s.peek()
        if s.t[s.i][0] == 'op' and o in ('-', '+', '!', '&', '++', '--', '*'):
            s.next(); return ('un', o, s.unary())
        return s.postfix()
    def postfix(s):
        k, v, ln = s.next()
        if k == 'num': a = ('num', v)
        elif k == 'str': a = ('str', v)
        elif k == 'id': a = ('id', v)
        elif v == '(':
            a = s.expr(); s.expect(')')
        elif v == '{': a = ('list', s.args('}'))
        else: raise SyntaxError(f'line {ln}: {v}')
        while True:
            o = s.peek()
            if o == '(' : s.next(); a = ('call', a, s.args(')'))
            elif o == '[': s.next(); e = s.expr(); s.expect(']'); a = ('index', a, e)
            elif o == '.':
                s.next(); n = s.next()[1]
                if s.peek() == '<': raise SyntaxError('template call')
                a = ('mem', a, n)
            elif o in ('++', '--'): s.next(); a = ('un', 'p' + o, a)
            else: return a

# ---------------------------------------------------------------- paths and generators
def leaf_paths(stmts):
    """All linear statement lists Catch2 would run for this block."""
    if not any(st[0] == 'section' for st in stmts): return [stmts]
    out = []
    for i, st in enumerate(stmts):
        if st[0] == 'section':
            pre = [x for x in stmts[:i] if x[0] != 'section']
            for p in leaf_paths(st[3]): out.append((pre + p))
    return out

# ---------------------------------------------------------------- translation
class Val:
    def __init__(s, ty, s_, py=None): s.ty, s.s, s.py = ty, s_, py

MUT = set('''set setIdentity rotate rotatePre transform transformPre translate translatePre scale scalePre mirror
normalize rotate90 rotate180 rotate270 slerp slerpMaxAngle slerpNoInvert lerp clerp clerpMaxAngle interp invert add
scaleCentered orthonormalise transpose move flip setAngle setFromPointAndTangents optimize'''.split())
SUFF = ['', 'Box', 'Sphere', 'Circle', 'Line', 'Ray', 'Hit', 'LineHit', 'LineRadius', 'Coord', 'Axis', 'Quat', 'Mat3', 'Vec', 'Vec3', 'Vec4', '3', '4', 'Mat34', 'Mat4', 'Mode']
CTORS = ['ofScalar', 'ofCols', 'ofCols3', 'ofAngle', 'ofVec3', 'ofVec2', 'ofPoint', 'ofCenterSize', 'ofBox', 'ofCBox',
         'ofGrey', 'ofQuat', 'ofMat3', 'ofExactApprox', 'ofAxisAngle', 'ofCoordAngle', 'ofVecs', 'from', 'fromPoint', 'fromPoints',
         'fromNormal', 'fromPlane', 'toRGB']
FIELDS = {'Vec2': ['R'] * 2, 'Vec3': ['R'] * 3, 'Vec4': ['R'] * 4, 'Quat': ['R'] * 4, 'AABB2': ['Vec2'] * 2, 'AABB3': ['Vec3'] * 2,
          'Circle': ['Vec2', 'R'], 'Sphere': ['Vec3', 'R'], 'Line2': ['Vec2'] * 2, 'Line3': ['Vec3'] * 2, 'Tri2': ['Vec2'] * 3,
          'ColorRGB': ['R'] * 3, 'ColorRGBA': ['R'] * 4, 'ColorHSV': ['R'] * 3, 'BezierSegment3': ['Vec3'] * 4, 'Plane': ['Vec3', 'R'],
          'HermiteSplineSegment3': ['Vec3'] * 4, 'Ray2': ['Vec2'] * 2, 'Ray3': ['Vec3'] * 2}
FLD = {'Vec2': dict(x='R', y='R'), 'Vec3': dict(x='R', y='R', z='R'), 'Vec4': dict(x='R', y='R', z='R', w='R'), 'Quat': dict(x='R', y='R', z='R', w='R'),
       'Mat2': dict(x='Vec2', y='Vec2'), 'Mat3': dict(x='Vec3', y='Vec3', z='Vec3'), 'Mat4': dict(x='Vec4', y='Vec4', z='Vec4', t='Vec4'),
       'Mat34': dict(rs='Mat3', t='Vec3'), 'AABB2': dict(inf='Vec2', sup='Vec2'), 'AABB3': dict(inf='Vec3', sup='Vec3'),
       'CAABB2': dict(center='Vec2', extents='Vec2'), 'CAABB3': dict(center='Vec3', extents='Vec3'), 'Circle': dict(center='Vec2', radius='R'),
       'Sphere': dict(center='Vec3', radius='R'), 'Plane': dict(normal='Vec3', d='R'), 'Line2': dict(start='Vec2', end='Vec2'),
       'Line3': dict(start='Vec3', end='Vec3'), 'Ray2': dict(start='Vec2', direction='Vec2'), 'Ray3': dict(start='Vec3', direction='Vec3'),
       'Tri2': dict(a='Vec2', b='Vec2', c='Vec2'), 'ColorRGB': dict(r='R', g='R', b='R'), 'ColorRGBA': dict(r='R', g='R', b='R', a='R'),
       'ColorHSV': dict(h='R', s='R', v='R')}
CONSTS = {'Zero': 'zero', 'OneX': 'oneX', 'OneY': 'oneY', 'OneZ': 'oneZ', 'OneW': 'oneW', 'OneXnw': 'oneXnw', 'OneYnw': 'oneYnw',
          'OneZnw': 'oneZnw', 'One': 'one'}
OPS = {'+': ['add', 'addVec3', 'translate'], '-': ['sub', 'subVec3', 'translateNeg'],
       '*': ['mul', 'smul', 'dot', 'mulVec', 'mulVec3', 'mulVec4', 'mulMat3', 'scale', 'scaleCentered'],
       '/': ['div', 'sdiv', 'unscale'], '%': ['cross', 'crossCoord', 'crossAxis']}
ASG = {'+=': ['addAssign', 'translate'], '-=': ['subAssign', 'translateNeg'],
       '*=': ['mulAssign', 'smulAssign', 'transformPre', 'transformPreMat3', 'transform', 'scaleCentered', 'scale'],
       '/=': ['divAssign', 'sdivAssign', 'unscale'], '%=': ['crossAssign', 'crossAssignCoord', 'crossAssignAxis']}
FREE = {'asin': ['asin\''], 'acos': ['acos\''], 'fmod': ['fmod\''], 'fmodPositive': ['fmodPositive'], 'fmodCentered': ['fmodCentered'],
        'next2D': ['next2D'], 'next3D': ['next3D'], 'degreeToRadian': ['degreeToRadian'], 'radianToDegree': ['radianToDegree'],
        'distance': ['distance2', 'distance3'], 'distanceSqr': ['distanceSqr2', 'distanceSqr3'], 'min': ["min'"], 'max': ["max'"],
        'abs': ["abs'"], 'clippedBetween': ['clippedBetween'], 'evaluate': ['evaluate'], 'sqrt': ['MathFns.sqrt'], 'sqrtf': ['MathFns.sqrt'],
        'sin': ['MathFns.sin'], 'cos': ['MathFns.cos'], 'sinf': ['MathFns.sin'], 'cosf': ['MathFns.cos'],
        'interpolationRatio': ['interpolationRatio'], 'lerp': ['lerp', 'lerpVec2', 'lerpVec3', 'lerpMode', 'lerpVec2Mode', 'lerpVec3Mode'],
        'clerp': ['clerp'], 'clerpMaxAngle': ['clerpMaxAngle'], 'fabs': ["abs'"], 'fabsf': ["abs'"]}
CONSTN = {'CPI6': '0.86602', 'SPI6': '0.5', 'CPI4': '0.70711', 'SPI4': '0.70711', 'CPI3': '0.5', 'SPI3': '0.86602'}
ZERO = {'R': '0', 'Vec2': '⟨0, 0⟩', 'Vec3': '⟨0, 0, 0⟩', 'I': '0'}

def coer(v, t):
    if v.ty == t: return v.s
    if t == 'R' and v.ty == 'I':
        if v.py is not None: return f'({v.py} : R)'
        raise Unsupported('int to real')
    if t == 'N' and v.ty == 'I' and v.py is not None and v.py >= 0: return str(v.py)
    return None

class Tr:
    def __init__(s, sigs, gens):
        s.sigs, s.gens, s.gi = sigs, gens, 0
        s.env, s.out, s.n, s.checks = {}, [], 0, 0
        s.gen_sizes = []
    def fresh(s, base='v'):
        s.n += 1; return f'{base}{s.n}'
    def emit(s, l): s.out.append(l)
    # call a model function
    def app(s, name, vals):
        if name not in s.sigs: return None
        args, ret = s.sigs[name]
        pre = []
        args = list(args)
        if args and args[0] == 'R → R': pre.append('id'); args = args[1:]
        if args and args[0] == 'ℤ → R': pre.append('toR'); args = args[1:]
        if len(args) != len(vals): return None
        ss = []
        for v, t in zip(vals, args):
            if isinstance(v, list): return None
            c = coer(v, t)
            if c is None: return None
            ss.append(c)
        term = '(' + ' '.join([name if name != 'from' else name] + pre + [f'{x}' for x in ss]) + ')'
        if not (pre or ss): term = f'({name} : {ret} R)' if isinstance(ret, str) and ret not in ('R',) else f'({name} : R)'
        if isinstance(ret, tuple) and ret[0] == 'Res':
            return Val(ret[1], f'(← {term[1:-1]})')
        return Val(ret, term)
    def first(s, names, vals):
        for n in names:
            r = s.app(n, vals)
            if r: return r
        return None
    def ctor(s, T, vals, how='ctor'):
        one = Val('R', '(1 : R)'); z3 = Val('Vec3', '(Vec3.zero : Vec3 R)')
        if len(vals) == 1 and not isinstance(vals[0], list) and vals[0].ty == T: return vals[0]
        if T == 'Vec4' and len(vals) == 1 and vals[0].ty == 'Vec3': vals = vals + [one if how == 'ctor' else Val('R', '(0 : R)')]
        if T == 'Vec4' and len(vals) == 3: vals = vals + [one if how == 'ctor' else Val('R', '(0 : R)')]
        if T == 'ColorRGB' and len(vals) == 3 and all(v.ty == 'I' for v in vals) and how != 'x':
            return s.app('ColorRGB.ofInts', vals)
        if T == 'ColorRGBA' and len(vals) in (3, 4) and all(v.ty == 'I' for v in vals):
            return s.app('ColorRGBA.ofInts', vals if len(vals) == 4 else vals + [Val('I', '255', 255)])
        if T == 'ColorRGBA' and len(vals) in (1, 3) and all(v.ty in 'RI' for v in vals): vals = vals + [one]
        if T == 'ColorRGBA' and len(vals) in (1, 2) and vals[0].ty == 'ColorRGB':
            return s.app('ColorRGB.toRGBA', vals if len(vals) == 2 else vals + [one])
        if T in ('Mat4', 'Mat34') and len(vals) == 3 and vals[0].ty == 'Vec3': vals = vals + [z3] if vals[2].ty == 'Vec3' else vals
        if T in ('Mat4', 'Mat34') and len(vals) == 1 and vals[0].ty == 'Quat': vals = vals + [z3]
        if T == 'Mat34' and len(vals) == 2 and vals[0].ty in ('Coord', 'Vec3') and vals[1].ty in 'RI': vals = vals + [z3]
        if T == 'Mat34' and len(vals) == 1 and vals[0].ty == 'Mat3': vals = vals + [z3]
        if T == 'Mat34' and len(vals) == 2 and [v.ty for v in vals] == ['Mat3', 'Vec3']: return Val(T, f'(⟨{vals[0].s}, {vals[1].s}⟩ : Mat34 R)')
        if T == 'Mat2' and how in ('set', 'from') and len(vals) == 1 and vals[0].ty in 'RI': return s.app('Mat2.ofAngle', vals)
        if T == 'Quat' and len(vals) == 3 and all(v.ty == 'Vec3' for v in vals): vals = vals + [one]
        if T in ('CAABB2', 'CAABB3') and [v.ty for v in vals] == ['Vec' + T[-1]] * 2:
            return s.app(T + '.ofCenterSize', vals)
        if T == 'Ray2' or T == 'Ray3':
            if how == 'from': return s.app(T + '.from', vals)
        if T == 'Plane' and how == 'tangents': return s.app('Plane.fromTangents', vals)
        if T == 'Plane' or T not in FIELDS:
            r = s.first([f'{T}.{c}' for c in CTORS], vals)
            if r: return r
        if T in FIELDS and len(vals) == len(FIELDS[T]):
            ss = [coer(v, t) for v, t in zip(vals, FIELDS[T])]
            if None not in ss: return Val(T, '(⟨' + ', '.join(ss) + f'⟩ : {T} R)')
        r = s.first([f'{T}.{c}' for c in CTORS], vals)
        if r: return r
        raise Unsupported(f'{T}({[v.ty if not isinstance(v, list) else "array" for v in vals]})')
    def buf(s, arr):
        return '(bufOf [' + ', '.join(v.s for v in arr) + '])'
    # expressions
    def ev(s, e):
        k = e[0]
        if k == 'num':
            t = e[1]
            if re.fullmatch(r'\d+', t): return Val('I', t, int(t))
            t = t.rstrip('f')
            if t.endswith('.'): t += '0'
            if t.startswith('.'): t = '0' + t
            return Val('R', f'({t} : R)')
        if k == 'id': return s.ident(e[1])
        if k == 'list': return [s.ev(x) for x in e[1]]
        if k == 'un':
            a = s.ev(e[2]); o = e[1]
            if o == '+': return a
            if o == '!': return Val('B', f'(!{a.s})')
            if o == '-':
                if a.ty == 'I': return Val('I', f'(-{a.s})', -a.py if a.py is not None else None)
                if a.ty in ('R', 'Vec2', 'Vec3', 'Vec4'): return Val(a.ty, f'(-{a.s})')
                r = s.app(f'{a.ty}.neg', [a])
                if r: return r
            raise Unsupported('unary ' + o)
        if k == 'cond':
            c, a, b = (s.ev(x) for x in e[1:])
            if c.py is not None: return a if c.py else b
            t = a.ty if a.ty != 'I' else b.ty
            if t == 'I': t = 'R'
            return Val(t, f'(if {c.s} then {coer(a, t)} else {coer(b, t)})')
        if k == 'bin': return s.binop(e[1], s.ev(e[2]), s.ev(e[3]))
        if k == 'index':
            a, i = s.ev(e[1]), s.ev(e[2])
            if isinstance(a, list):
                if i.py is None: raise Unsupported('index')
                v = a[i.py]
                if v is None: raise Unsupported('uninitialised element')
                return v
            if isinstance(a, Val) and isinstance(a.ty, tuple) and a.ty[0] == 'arr': return Val(a.ty[1], f'({a.s} {i.py})')
            if i.ty == 'Coord':
                r = s.app(f'{a.ty}.get', [a, i])
                if r: return r
                if i.py in ('X', 'Y', 'Z', 'W') and i.py.lower() in FLD.get(a.ty, {}):
                    return Val(FLD[a.ty][i.py.lower()], f'{a.s}.{i.py.lower()}')
            raise Unsupported('index')
        if k == 'mem':
            a = s.ev(e[1])
            if a.ty == 'Frustum' and e[2] in ('planes', 'corners'):
                return Val(('arr', 'Plane' if e[2] == 'planes' else 'Vec3'), f'{a.s}.{e[2]}')
            if e[2] in FLD.get(a.ty, {}): return Val(FLD[a.ty][e[2]], f'{a.s}.{e[2]}')
            if a.ty == 'Mat34' and e[2] in 'xyz': return Val('Vec3', f'{a.s}.rs.{e[2]}')
            raise Unsupported(f'field {a.ty}.{e[2]}')
        if k == 'call': return s.call(e)
        if k == 'assign':
            s.assign(e); return s.ev(e[2])
        raise Unsupported(k)
    def ident(s, n):
        if n in s.env:
            v = s.env[n]
            if v is None or isinstance(v, tuple): raise Unsupported('uninitialised ' + n)
            return v
        if n in ('true', 'false'): return Val('B', n, n == 'true')
        if n in CONSTN: return Val('R', f'({CONSTN[n]} : R)')
        if '::' in n:
            a, b = n.rsplit('::', 1)
            if a == 'Coord': return Val('Coord', f'Coord.{b}', b)
            if a in ('Axis', 'ResponseCurveType', 'InterpolationMode'): return Val(a, f'{a}.{b}', b)
            if a in ('Constantsf', 'Constantsd'):
                m = re.fullmatch(r'PI(?:_(OVER|TIMES)_(\d+))?', b)
                if m:
                    if not m.group(1): return Val('R', '(MathFns.pi : R)')
                    return Val('R', f"((MathFns.pi : R) {'/' if m.group(1) == 'OVER' else '*'} {m.group(2)})")
            T = type_of_name(a)
            if T:
                if T in ('CAABB2', 'CAABB3', 'AABB2', 'AABB3', 'Circle', 'Sphere') and b in ('One', 'Zero'):
                    return Val(T, f'(const{T}{b} : {T} R)')
                if T == 'Quat' and b == 'One': return Val(T, '(Quat.identity : Quat R)')
                for nm in (CONSTS.get(b, b), b):
                    r = s.app(f'{T}.{nm}', [])
                    if r: return r
        raise Unsupported('name ' + n)
    def binop(s, o, a, b):
        if isinstance(a, list) or isinstance(b, list): raise Unsupported('array op')
        if a.ty == 'I' and b.ty == 'I' and a.py is not None and b.py is not None:
            if o in ('+', '-', '*'):
                r = eval(f'a.py {o} b.py'); return Val('I', f'({r})', r)
            if o in ('<', '>', '<=', '>=', '==', '!='):
                r = eval(f'a.py {o} b.py'); return Val('B', str(r).lower(), r)
            if o == '/' and b.py: r = int(a.py / b.py); return Val('I', f'({r})', r)
            if o == '%' and b.py: r = a.py % b.py; return Val('I', f'({r})', r)
        if o in ('&&', '||'): return Val('B', f'({a.s} {o} {b.s})')
        if a.ty in ('R', 'I') and b.ty in ('R', 'I') and not (a.ty == b.ty == 'I' and o in ('==', '!=')):
            x, y = coer(a, 'R'), coer(b, 'R')
            if o in ('+', '-', '*', '/'): return Val('R', f'({x} {o} {y})')
            if o in ('<', '>', '<=', '>='): return Val('B', f'(decide ({x} {o} {y}))')
            if o in ('==', '!='): return Val('B', f'({x} {o} {y})')
        if o in ('==', '!='):
            if a.ty == b.ty and isinstance(a.ty, str):
                if a.ty in ('Coord', 'Axis', 'B', 'I', 'N'): return Val('B', f'(decide ({a.s} {"=" if o == "==" else "≠"} {b.s}))')
                r = s.app(f'{a.ty}.{"eq" if o == "==" else "ne"}', [a, b])
                if r: return r
            if a.ty == 'N' and b.ty == 'I' or a.ty == 'I' and b.ty == 'N': return Val('B', f'(decide ({a.s} = {b.s}))')
        if o in ('+', '-') and a.ty == b.ty and a.ty in ('Vec2', 'Vec3', 'Vec4'): return Val(a.ty, f'({a.s} {o} {b.s})')
        if o == '*' and a.ty in ('Vec2', 'Vec3', 'Vec4') and b.ty in ('R', 'I'): return Val(a.ty, f'({a.s} * {coer(b, "R")})')
        names = OPS.get(o, [])
        if 'AABB' in a.ty: names = [n for n in names if n != 'add']
        r = s.first([f'{a.ty}.{n}' for n in names], [a, b])
        if r: return r
        if o == '*' and a.ty.startswith('Vec') and b.ty.startswith('Mat'):
            r = s.app(f'{b.ty}.vecMul', [a, b])
            if r: return r
        raise Unsupported(f'{a.ty} {o} {b.ty}')
    def method(s, a, n, vals):
        T = a.ty
        if n == 'copy': return a
        if n in ('normalized', 'normalize') and not vals: vals = [Val('R', '(1 : R)')]
        if T == 'ColorHSV' and n == 'toRGB' and vals: return s.app('ColorHSV.toRGBA', [a] + vals)
        if T == 'BezierSegment3' and re.fullmatch('p[1-4]', n): return Val('Vec3', f'{a.s}.{n.upper()}')
        if T == 'HermiteSplineSegment3' and re.fullmatch('[pr][14]', n): return Val('Vec3', f'{a.s}.{n.upper()}')
        if n in FLD.get(T, {}) and not vals: return Val(FLD[T][n], f'{a.s}.{n}')
        if n in ('setAngle',): return s.app('Vec2.ofAngle', vals if len(vals) == 2 else vals + [Val('R', '(1 : R)')])
        if n in ('slerp', 'slerpMaxAngle', 'slerpNoInvert', 'lerp', 'clerp', 'clerpMaxAngle', 'interp'):
            r = s.app(f'{T}.{n}', vals)
            if r: return r
        if n == 'set':
            return s.ctor(T, vals, 'set')
        if n == 'setFromPointAndTangents': return s.ctor(T, vals, 'tangents')
        if n == 'setIdentity': return s.app(f'{T}.setIdentity', [])
        if n == 'rotate' and T == 'Mat2' and vals and vals[0].ty == 'Mat2': return s.app('Mat2.mulAssign', [a] + vals)
        r = s.first([f'{T}.{n}{x}' for x in SUFF], [a] + vals)
        if r:
            if n == 'normalize' and isinstance(r.ty, tuple): return Val(T, f'({r.s}).1')
            return r
        raise Unsupported(f'{T}.{n}({[v.ty for v in vals]})')
    def outcall(s, a, n, args):
        """member functions with leading output parameters; returns a Bool value or None"""
        for k in (1, 2):
            if len(args) <= k or any(x[0] != 'id' or x[1] not in s.decl for x in args[:k]): continue
            try: rest = [s.ev(x) for x in args[k:]]
            except Unsupported: continue
            for x in SUFF:
                for pre in ([], [Val('R', '(fltMax : R)')]):
                    r = s.app(f'{a.ty}.{n}{x}', pre + [a] + rest)
                    if not r or not isinstance(r.ty, tuple) or r.ty[0] != 'Option': continue
                    comps = r.ty[1][1:] if isinstance(r.ty[1], tuple) else (r.ty[1],)
                    if len(comps) != k: continue
                    outs = [x[1] for x in args[:k]]
                    tys = [s.decl[o] for o in outs]
                    if sorted(tys) != sorted(comps): continue
                    o = s.fresh('o'); s.emit(f'let {o} := {r.s}')
                    dflt = ', '.join(ZERO[c] for c in comps)
                    val = f'({o}.getD ({dflt}))'
                    if k == 1: s.env[outs[0]] = Val(comps[0], val)
                    else:
                        order = [0, 1] if tys == list(comps) else [1, 0]
                        for nm, ix in zip(outs, order): s.env[nm] = Val(comps[ix], f'{val}.{ix + 1}')
                    return Val('B', f'{o}.isSome')
        return None
    def call(s, e):
        f, args = e[1], e[2]
        if f[0] == 'mem':
            a = s.ev(f[1]); n = f[2]
            if n in ('hits', 'intersects', 'contains'):
                r = s.outcall(a, n, args)
                if r: return r
            return s.method(a, n, [s.ev(x) for x in args])
        if f[0] != 'id': raise Unsupported('call')
        n = f[1]
        if n == 'GENERATE':
            s.gen_sizes.append(len(args))
            i = s.gens[s.gi] if s.gi < len(s.gens) else 0
            s.gi += 1
            return s.ev(args[i])
        T = type_of_name(n)
        if T and T in TYPES: return s.ctor(T, [s.ev(x) for x in args])
        if T == 'R': return Val('R', coer(s.ev(args[0]), 'R'))
        if '::' in n:
            a, b = n.rsplit('::', 1)
            if a[:-1] in STATICS: return s.solver(a[:-1], b, args)
            T = type_of_name(a)
            if T == 'Plane' and b == 'intersectAtSinglePoint':
                vals = [s.ev(x) for x in args[1:]]
                r = s.app('Plane.intersectAtSinglePoint', vals)
                o = s.fresh('o'); s.emit(f'let {o} ← {r.s[3:-1]}')
                s.env[args[0][1]] = Val('Vec3', f'{o}.2')
                return Val('B', f'{o}.1')
            vals = [s.ev(x) for x in args]
            if T:
                if b == 'from': return s.ctor(T, vals, 'from')
                if b == 'fromPointAndTangents': return s.ctor(T, vals, 'tangents')
                if b == 'fromAngle': return s.app('Vec2.ofAngle', vals if len(vals) == 2 else vals + [Val('R', '(1 : R)')])
                if b == 'fromInfSup': return s.app(f'{T}.ofBox', [s.ctor(T[1:], vals)])
                if b.startswith('from'):
                    m = b[4].lower() + b[5:]
                    r = s.app(f'{T}.{m}', vals) or s.app(f'{T}.{b}', vals)
                    if r: return r
                r = s.app(f'{T}.{b}', vals)
                if r: return r
            raise Unsupported(n)
        vals = [s.ev(x) for x in args]
        if n == 'lerp' and len(vals) >= 3 and vals[0].ty == vals[1].ty == 'I':
            r = s.first(['lerpInt', 'lerpIntMode'], vals)
            if r: return r
        if n in FREE:
            r = s.first(FREE[n], vals)
            if r: return r
        raise Unsupported(n + str([v.ty if isinstance(v, Val) else 'arr' for v in vals]))
    def solver(s, cls, fn, args):
        def arr(x):
            if x[0] != 'id': raise Unsupported('array')
            return x[1]
        def inb(x): return s.buf(s.ev(x))
        def outb(x):
            v = s.env[arr(x)]
            return f'(Buf.alloc {len(v)})'
        def setout(x, term):
            nm = arr(x); ty = s.arrty[nm]
            s.env[nm] = [Val(ty, f'(← ({term}).get {i})') for i in range(len(s.env[nm]))]
        o = s.fresh('o')
        if cls == 'TriDiagonal' and fn in ('solve', 'solveCyclic'):
            if fn == 'solve':
                a, b, c, r, u, n = args
                name = 'TriDiagonal.solve3' if s.arrty[arr(u)] == 'Vec3' else 'TriDiagonal.solve'
                extra = ''
            else:
                a, b, c, al, be, r, u, n = args
                name = 'TriDiagonal.solveCyclic'; extra = f' {coer(s.ev(al), "R")} {coer(s.ev(be), "R")}'
            s.emit(f'let {o} ← {name} {inb(a)} {inb(b)} {inb(c)}{extra} {inb(r)} {outb(u)} {s.ev(n).py}')
            setout(u, f'{o}.2'); return Val('B', f'{o}.1')
        if cls == 'GaussJordan' and fn == 'solve':
            a, n, b = args[:3]
            A, B = s.ev(a), s.ev(b)
            if len(args) == 3:
                ty = s.arrty[arr(b)]
                if ty not in ('Vec2', 'Vec3'): raise Unsupported('solve')
                cs = 'xyz'[:int(ty[3])]; res = f'({o}.getD (Buf.alloc 0, Buf.alloc 0))'
                flat = [Val('R', f'{v.s}.{c}') for v in B for c in cs]
                s.emit(f"let {o} ← GaussJordan.solve abs' {s.buf(A)} {s.ev(n).py} {s.buf(flat)} {len(cs)}")
                setout(a, f'{res}.1')
                s.env[arr(b)] = [Val(ty, '(⟨' + ', '.join(f'← ({res}.2).get {i * len(cs) + j}' for j in range(len(cs))) + f'⟩ : {ty} R)')
                                 for i in range(len(B))]
                return Val('B', f'{o}.isSome')
            m = args[3]
            s.emit(f"let {o} ← GaussJordan.solve abs' {s.buf(A)} {s.ev(n).py} {s.buf(B)} {s.ev(m).py}")
            setout(a, f'({o}.getD (Buf.alloc 0, Buf.alloc 0)).1'); setout(b, f'({o}.getD (Buf.alloc 0, Buf.alloc 0)).2')
            return Val('B', f'{o}.isSome')
        if cls == 'SplineSolver3':
            n = s.ev(args[0]).py; p1 = inb(args[1]); p2, p3 = args[-2], args[-1]
            if fn == 'naturalBezierSpline': t = f'{n} {p1} {outb(p2)} {outb(p3)}'
            elif fn == 'closedBezierSpline': t = f"abs' {n} {p1} {outb(p2)} {outb(p3)}"
            else: t = f'{n} {p1} {s.ev(args[2]).s} {s.ev(args[3]).s} {outb(p2)} {outb(p3)}'
            s.emit(f'let {o} ← SplineSolver3.{fn} {t}')
            setout(p2, f'{o}.2.1'); setout(p3, f'{o}.2.2'); return Val('B', f'{o}.1')
        raise Unsupported(cls + fn)
    # statements
    def store(s, n, v):
        if isinstance(v, list): s.env[n] = v; return
        if v.ty == 'I' and v.py is not None and s.decl.get(n) != 'R': s.env[n] = v; return
        if v.ty == 'Coord' and v.py is not None: s.env[n] = v; return
        x = s.fresh()
        t = v.s if v.ty != 'I' else coer(v, 'R')
        ty = v.ty if v.ty != 'I' else 'R'
        lty = 'R' if ty == 'R' else (f'{ty} R' if ty in TYPES else {'I': 'Int', 'B': 'Bool'}.get(ty, ty))
        s.emit(f'let {x} : {lty} := {t}'); s.env[n] = Val(ty, x)
    def assign_to(s, lhs, v):
        if lhs[0] == 'id': s.store(lhs[1], v); return
        if lhs[0] == 'mem':
            a = s.ev(lhs[1]); t = FLD.get(a.ty, {}).get(lhs[2])
            if not t: raise Unsupported('assign field')
            s.assign_to(lhs[1], Val(a.ty, f'{{ {a.s} with {lhs[2]} := {coer(v, t)} }}')); return
        if lhs[0] == 'index':
            a, i = s.ev(lhs[1]), s.ev(lhs[2])
            if isinstance(a, list) and i.py is not None:
                x = s.fresh(); ty = s.arrty[lhs[1][1]]; s.emit(f'let {x} := {coer(v, ty)}'); a[i.py] = Val(ty, x); return
            if i.ty == 'Coord':
                f = i.py.lower(); t = FLD[a.ty].get(f)
                if t: s.assign_to(lhs[1], Val(a.ty, f'{{ {a.s} with {f} := {coer(v, t)} }}')); return
        raise Unsupported('assign')
    def assign(s, e):
        _, o, lhs, rhs = e
        v = s.ev(rhs)
        if o == '=':
            if lhs[0] == 'id' and s.decl.get(lhs[1]) in TYPES and not isinstance(v, list) and v.ty != s.decl[lhs[1]]:
                v = s.ctor(s.decl[lhs[1]], [v])
            s.assign_to(lhs, v); return
        a = s.ev(lhs)
        if a.ty in ('R', 'I'): s.assign_to(lhs, s.binop(o[0], a, v)); return
        r = s.first([f'{a.ty}.{n}' for n in ASG[o]], [a, v])
        if not r and o == '*=' and a.ty.startswith('Vec') and v.ty.startswith('Mat'): r = s.app(f'{v.ty}.vecMulAssign', [a, v])
        if not r: raise Unsupported(f'{a.ty} {o} {v.ty}')
        s.assign_to(lhs, r)
    def run(s, stmts):
        for st in stmts: s.stmt(st)
    decl = None
    def stmt(s, st):
        k, ln = st[0], st[1]
        if k == 'decl':
            _, _, ty, n, init = st
            s.decl[n] = ty
            if init is None: s.env[n] = None; return
            if ty == 'ptr': raise Unsupported('pointer')
            if init[0] == 'ctor': s.store(n, s.ctor(ty, [s.ev(x) for x in init[1]])); return
            v = s.ev(init[1])
            if isinstance(v, list): v = s.ctor(ty, v)
            if ty in TYPES and v.ty != ty: v = s.ctor(ty, [v])
            if ty == 'auto': s.decl[n] = v.ty
            s.store(n, v); return
        if k == 'array':
            _, _, ty, n, size, init = st
            s.arrty[n] = ty
            if init is None: s.env[n] = [None] * s.ev(size).py
            else:
                vs = s.ev(init)
                if any(isinstance(v, list) for v in vs): raise Unsupported('nested array')
                r = []
                for v in vs:
                    x = s.fresh(); lty = 'R' if ty == 'R' else f'{ty} R'
                    if ty == 'I': r.append(v); continue
                    s.emit(f'let {x} : {lty} := {coer(v, ty)}'); r.append(Val(ty, x))
                s.env[n] = r
            return
        if k == 'check':
            c = s.check(st[2], st[3])
            s.emit(f'bad := ck bad {ln} {c}'); s.checks += 1; return
        if k == 'expr':
            e = st[2]
            if e[0] == 'assign': s.assign(e); return
            if e[0] == 'call' and e[1][0] == 'mem' and e[1][2] in MUT: s.mutate(e); return
            raise Unsupported('statement')
        if k == 'if':
            c = s.ev(st[2])
            if c.py is None: raise Unsupported('if')
            s.run(st[3] if c.py else st[4]); return
        if k == 'for':
            txt = ' '.join(t[1] for t in st[2])
            m = re.fullmatch(r'int (\w+) = (\d+) ; \1 (<|<=) (\d+) ; (?:\1 \+\+|\+\+ \1)', txt)
            if m:
                n, a, o, b = m.groups()
                for i in range(int(a), int(b) + (o == '<=')):
                    s.decl[n] = 'I'; s.env[n] = Val('I', str(i), i); s.run(st[3])
                return
            m = re.fullmatch(r'(?:const )?(\w+) &? ?(\w+) : (\w+)', txt)
            if m and isinstance(s.env.get(m.group(3)), list):
                for v in list(s.env[m.group(3)]):
                    s.env[m.group(2)] = v; s.run(st[3])
                return
            raise Unsupported('for')
        raise Unsupported(k)
    def mutate(s, e):
        """x.f(..).g(..); rebinding x"""
        chain = []
        while e[0] == 'call' and e[1][0] == 'mem':
            chain.append((e[1][2], e[2])); e = e[1][1]
        lhs = e
        for n, args in reversed(chain):
            if n not in MUT: raise Unsupported('mutator ' + n)
            if lhs[0] == 'id' and s.env.get(lhs[1]) is None:
                a = Val(s.decl[lhs[1]], 'uninit')
            else: a = s.ev(lhs)
            if a.ty == 'Frustum' and n == 'set':
                *m, c = args
                cs = s.ev(c); fn = '(fnOf [' + ', '.join(v.s for v in cs) + '])'
                if not m: v = Val('Frustum', f'(Frustum.set {fn})')
                else:
                    mv = s.ev(m[0]); v = Val('Frustum', f'(Frustum.set{mv.ty} {mv.s} {fn})')
            elif n == 'set' and len(args) == 2 and args[0][0] == 'id' and args[0][1] in s.arrty:
                cs = s.ev(args[0]); d = s.arrty[args[0][1]][-1]
                v = Val(a.ty, f'(← {a.ty}.set (memOf{d} [' + ', '.join(x.s for x in cs) + f']) 0 {s.ev(args[1]).py})')
            elif n == 'set' and len(args) == 2 and a.ty.startswith('Vec') and args[0][0] == 'id' and args[0][1].startswith('Coord::'):
                v = s.app(f'{a.ty}.setCoord', [a] + [s.ev(x) for x in args])
            else:
                v = s.method(a, n, [s.ev(x) for x in args])
            if 'uninit' in v.s: raise Unsupported('uninitialised')
            if v.ty != a.ty: raise Unsupported('mutator type')
            s.assign_to(lhs, v)
    def check(s, kind, args):
        if kind == 'REQUIRE_THAT':
            v = s.ev(args[0]); m = args[1]
            neg = False
            if m[0] == 'un' and m[1] == '!': neg = True; m = m[2]
            if m[0] != 'call': raise Unsupported('matcher')
            nm = m[1][1].split('::')[-1]; ma = m[2]
            t = s.ev(ma[0])
            if t.ty == 'I' and v.ty == 'R': t = Val('R', coer(t, 'R'))
            if v.ty == 'I' and t.ty == 'R': v = Val('R', coer(v, 'R'))
            if t.ty != v.ty: raise Unsupported(f'matcher {v.ty} {t.ty}')
            eps = coer(s.ev(ma[1]), 'R') if len(ma) > 1 else '(0.001 : R)'
            if nm == 'WithinAbs': c = f'(Near.near {eps} {v.s} {t.s})'
            elif nm == 'WithinRel': c = f'(nearRel {eps} {v.s} {t.s})'
            else: raise Unsupported(nm)
            return f'(!{c})' if neg else c
        v = s.ev(args[0])
        if v.ty != 'B': raise Unsupported('check type')
        return v.s if kind != 'REQUIRE_FALSE' else f'(!{v.s})'

def count_checks(stmts):
    n = 0
    for st in stmts:
        if st[0] == 'check': n += 1
        elif st[0] == 'for': n += count_checks(st[3])
        elif st[0] == 'if': n += count_checks(st[3]) + count_checks(st[4])
    return n

def translate(sigs, path, verbose=False):
    src = open(path).read()
    src = re.sub(r'\.cast<\w+>', '.cast', src)
    toks = lex(src)
    p = P(toks)
    top = []
    while p.t[p.i][0] != 'eof':
        top += p.stmt()
    done, lost, total, why, runs = set(), set(), set(), {}, []
    name = re.sub('test_', '', os.path.basename(path))[:-4]
    for tc in top:
        if tc[0] != 'section': continue
        for stmts in leaf_paths([tc]) if False else leaf_paths(tc[3]):
            for st in stmts:
                if st[0] == 'check': total.add(st[1])
            text = repr(stmts)
            kind = 'Float' if re.search(r"\b(Constantsd|Vec[234]d|double|Line[23]d|Ray[23]d|Mat\w+d|AABB[23]d)\b", text) or (name in ('functions', 'interpolation') and not re.search(r'Vec[23]f', text)) else 'Float32'
            if 'cast' in text or 'N_TEST_RUNS' in text or 'sizeof' in text:
                for st in stmts:
                    if st[0] == 'check' and st[1] not in done: lost.add(st[1]); why.setdefault(st[1], 'cast/random/sizeof')
                continue
            sizes = None; combos = [()]
            while combos:
                g = combos.pop(0)
                t = Tr(sigs, list(g)); t.decl, t.arrty = {}, {}
                okl = set()
                for i, st in enumerate(stmts):
                    try:
                        mark = len(t.out)
                        t.stmt(st)
                        if st[0] == 'check': okl.add(st[1])
                        if st[0] == 'for': okl |= {x[1] for x in st[3] if x[0] == 'check'}
                    except (Unsupported, KeyError, IndexError, AttributeError, TypeError, ValueError) as ex:
                        del t.out[mark:]
                        why.setdefault(st[1], f'{type(ex).__name__} {ex}')
                        if st[0] == 'check' and 'solve' not in repr(st): continue
                        for r in stmts[i:]:
                            if r[0] == 'check': why.setdefault(r[1], f'after {st[1]}: {ex}')
                        break
                if g == () and t.gen_sizes:
                    combos = [c for c in itertools.product(*[range(k) for k in t.gen_sizes])]
                    if len(combos) > MAXCOMBO: combos = combos[::-(-len(combos) // MAXCOMBO)]
                    continue
                done |= okl
                if okl: runs.append((stmts[0][1], kind, t.out))
    miss = {l for l in total if l not in done}
    return name, runs, done, miss, why

HEAD = '''import Verif.Conformance.Base

/-!
# Unit tests of `tests/tests/src/test_{name}.cpp`, replayed on the model

Generated by `tools/conform.py`; the numbers are the source lines of the checks.  {done} checks;
{miss} checks of that file are not translated (casts, random draws, `sizeof`, `data()`, and
functions outside the model).
-/

namespace MathLib.Conformance
set_option linter.all false
'''

def main():
    defs, tests, outdir = sys.argv[1:4]
    only = sys.argv[4:] 
    sigs = load_defs(defs)
    tot = lostt = 0
    for f in sorted(os.listdir(tests)):
        if not f.startswith('test_') or not f.endswith('.cpp'): continue
        name, runs, done, miss, why = translate(sigs, os.path.join(tests, f))
        if only and name not in only: continue
        tot += len(done); lostt += len(miss)
        print(f'{name}: {len(done)} checks kept, {len(miss)} dropped')
        if only:
            for l in sorted(miss): print('  ', l, why.get(l))
        mod = ''.join(w.capitalize() for w in name.split('_'))
        with open(os.path.join(outdir, mod + '.lean'), 'w') as o:
            o.write(HEAD.format(name=name, done=len(done), miss=len(miss)))
            for i, (ln, kind, body) in enumerate(runs):
                o.write(f'\nnamespace {mod}_{i}\nabbrev R := {kind}\ndef run : Res (List Nat) := do\n  let mut bad : List Nat := []\n')
                for l in body: o.write('  ' + l + '\n')
                o.write(f'  return bad\nend {mod}_{i}\n#guard passes {mod}_{i}.run\n')
            o.write('\nend MathLib.Conformance\n')
    print(tot, lostt)
main()
